import Verif.Model.Encoders
import Verif.Spec.Leb
import Verif.Proof.Bits

/-! C86: what the encoders of the unit tests produce is an encoding of Spec/Leb, as short as possible. -/

namespace Wadec

open Spec

theorem low7_32 (v : UInt32) : (v &&& 0x7F).toUInt8.toNat = v.toNat % 128 := by
  have : (v &&& 0x7F).toNat = v.toNat % 128 := by
    rw [UInt32.toNat_and]; exact Nat.and_two_pow_sub_one_eq_mod v.toNat 7
  rw [UInt32.toNat_toUInt8, this]; omega

theorem low7_64 (v : UInt64) : (v &&& 0x7F).toUInt8.toNat = v.toNat % 128 := by
  have : (v &&& 0x7F).toNat = v.toNat % 128 := by
    rw [UInt64.toNat_and]; exact Nat.and_two_pow_sub_one_eq_mod v.toNat 7
  rw [UInt64.toNat_toUInt8, this]; omega

theorem low7_s64 (v : Int64) : ((v &&& 0x7F).toUInt64.toUInt8.toNat : Int) = v.toInt % 128 := by
  have h : (v &&& 0x7F).toUInt64 = v.toUInt64 &&& 0x7F := rfl
  rw [h, low7_64, ← Int64.toInt_toBitVec]
  have e : v.toUInt64.toNat = v.toBitVec.toNat := rfl
  rw [e, BitVec.toInt_eq_toNat_cond]
  split <;> omega

set_option maxRecDepth 100000 in
theorem or80 (b : UInt8) : b.toNat < 128 → b ||| 0x80 = UInt8.ofNat (128 + b.toNat) := by
  revert b; apply forall_u8; decide

theorem u8_eq {b : UInt8} {n : Nat} (h : b.toNat = n) : b = UInt8.ofNat n := by
  rw [← h, UInt8.ofNat_toNat]

/-- `k` bytes are as few as `n` fits into. -/
def LeastU (k n : Nat) : Prop := 1 ≤ k ∧ n < 2 ^ (7 * k) ∧ ∀ j, 1 ≤ j → n < 2 ^ (7 * j) → k ≤ j

/-- `k` bytes are as few as the signed `n` fits into. -/
def LeastS (k : Nat) (n : Int) : Prop :=
  1 ≤ k ∧ (-2 ^ (7 * k - 1) ≤ n ∧ n < 2 ^ (7 * k - 1)) ∧ ∀ j, 1 ≤ j → -2 ^ (7 * j - 1) ≤ n → n < 2 ^ (7 * j - 1) → k ≤ j

theorem leastU_succ {k n : Nat} (h : LeastU k (n / 128)) (h0 : n / 128 ≠ 0) : LeastU (k + 1) n := by
  obtain ⟨h1, h2, h3⟩ := h
  refine ⟨by omega, ?_, fun j hj hn => ?_⟩
  · rw [show 7 * (k + 1) = 7 * k + 7 by omega, Nat.pow_add]; omega
  · match j, hj with
    | 1, _ => have : (2 : Nat) ^ (7 * 1) = 128 := rfl; omega
    | j + 2, _ =>
      rw [show 7 * (j + 2) = 7 * (j + 1) + 7 by omega, Nat.pow_add] at hn
      have := h3 (j + 1) (by omega) (by omega)
      omega

theorem encodeU32_enc (v : UInt32) : ∃ k, LeastU k v.toNat ∧ encodeU32 v = uEnc k v.toNat := by
  rw [encodeU32]
  have hs := shiftRight7_toNat32 v
  have hl := low7_32 v
  by_cases h : v >>> 7 ≠ 0
  · have h0 : v.toNat / 128 ≠ 0 := fun e => h (UInt32.toNat_inj.1 (hs.trans e))
    have : (v >>> 7).toNat < v.toNat := by omega
    obtain ⟨k, hk, he⟩ := encodeU32_enc (v >>> 7)
    rw [hs] at hk he
    refine ⟨k + 1, leastU_succ hk h0, ?_⟩
    obtain ⟨k, rfl⟩ : ∃ j, k = j + 1 := ⟨k - 1, by have := hk.1; omega⟩
    simp only [dif_pos h, he, uEnc]
    rw [or80 _ (by omega), hl]
  · have h : v >>> 7 = 0 := Decidable.not_not.1 h
    have h0 : v.toNat / 128 = 0 := by rw [← hs, h]; rfl
    refine ⟨1, ⟨by omega, by have : (2 : Nat) ^ (7 * 1) = 128 := rfl; omega, fun j hj _ => hj⟩, ?_⟩
    simp only [h, ne_eq, not_true, dite_false, uEnc]
    rw [u8_eq hl]
termination_by v.toNat

theorem encodeU64_enc (v : UInt64) : ∃ k, LeastU k v.toNat ∧ encodeU64 v = uEnc k v.toNat := by
  rw [encodeU64]
  have hs := shiftRight7_toNat64 v
  have hl := low7_64 v
  by_cases h : v >>> 7 ≠ 0
  · have h0 : v.toNat / 128 ≠ 0 := fun e => h (UInt64.toNat_inj.1 (hs.trans e))
    have : (v >>> 7).toNat < v.toNat := by omega
    obtain ⟨k, hk, he⟩ := encodeU64_enc (v >>> 7)
    rw [hs] at hk he
    refine ⟨k + 1, leastU_succ hk h0, ?_⟩
    obtain ⟨k, rfl⟩ : ∃ j, k = j + 1 := ⟨k - 1, by have := hk.1; omega⟩
    simp only [dif_pos h, he, uEnc]
    rw [or80 _ (by omega), hl]
  · have h : v >>> 7 = 0 := Decidable.not_not.1 h
    have h0 : v.toNat / 128 = 0 := by rw [← hs, h]; rfl
    refine ⟨1, ⟨by omega, by have : (2 : Nat) ^ (7 * 1) = 128 := rfl; omega, fun j hj _ => hj⟩, ?_⟩
    simp only [h, ne_eq, not_true, dite_false, uEnc]
    rw [u8_eq hl]
termination_by v.toNat

theorem leastS_succ {k : Nat} {n : Int} (h : LeastS k (n / 128)) (h0 : ¬ (-64 ≤ n ∧ n < 64)) : LeastS (k + 1) n := by
  obtain ⟨h1, ⟨h2, h2'⟩, h3⟩ := h
  have e (j : Nat) (hj : 1 ≤ j) : (2 : Int) ^ (7 * (j + 1) - 1) = 2 ^ (7 * j - 1) * 128 := by
    rw [show 7 * (j + 1) - 1 = 7 * j - 1 + 7 by omega, Int.pow_add]; rfl
  refine ⟨by omega, ?_, fun j hj hn hn' => ?_⟩
  · rw [e k h1]; omega
  · match j, hj with
    | 1, _ => have : (2 : Int) ^ (7 * 1 - 1) = 64 := rfl; omega
    | j + 2, _ =>
      rw [e (j + 1) (by omega)] at hn hn'
      have := h3 (j + 1) (by omega) (by omega) (by omega)
      omega

theorem encodeSleb64_enc (v : Int64) : ∃ k, LeastS k v.toInt ∧ encodeSleb64 v = sEnc k v.toInt := by
  rw [encodeSleb64]
  have hs := shiftRight7_toInt64 v
  have hl := low7_s64 v
  have hb : (v &&& 0x7F).toUInt64.toUInt8.toNat < 128 := by omega
  have h40 := and40 _ hb
  have z0 : v >>> 7 = 0 ↔ v.toInt / 128 = 0 := by rw [← hs, ← Int64.toInt_inj]; rfl
  have z1 : v >>> 7 = -1 ↔ v.toInt / 128 = -1 := by rw [← hs, ← Int64.toInt_inj]; rfl
  by_cases h : (v >>> 7 = 0 ∧ (v &&& 0x7F).toUInt64.toUInt8 &&& 0x40 = 0) ∨ (v >>> 7 = -1 ∧ (v &&& 0x7F).toUInt64.toUInt8 &&& 0x40 ≠ 0)
  · simp only [dif_pos h]
    have hr : -64 ≤ v.toInt ∧ v.toInt < 64 := by
      rcases h with ⟨h1, h2⟩ | ⟨h1, h2⟩
      · have := z0.1 h1
        have : ¬ 64 ≤ (v &&& 0x7F).toUInt64.toUInt8.toNat := fun e => h40.2 e h2
        omega
      · have := z1.1 h1
        have := h40.1 h2
        omega
    refine ⟨1, ⟨by omega, by have : (2 : Int) ^ (7 * 1 - 1) = 64 := rfl; omega, fun j hj _ _ => hj⟩, ?_⟩
    rw [sEnc, u8_eq (show (v &&& 0x7F).toUInt64.toUInt8.toNat = (v.toInt % 128).toNat by omega)]
  · have hd := sleb_step v h
    obtain ⟨k, hk, he⟩ := encodeSleb64_enc (v >>> 7)
    rw [hs] at hk he
    have hx : ¬ (-64 ≤ v.toInt ∧ v.toInt < 64) := by
      intro hx
      apply h
      rw [h40, z0, z1]
      by_cases h64 : 0 ≤ v.toInt
      · refine .inl ⟨by omega, ?_⟩
        exact Decidable.not_not.1 fun e => by have := h40.1 e; omega
      · exact .inr ⟨by omega, by omega⟩
    refine ⟨k + 1, leastS_succ hk hx, ?_⟩
    obtain ⟨k, rfl⟩ : ∃ j, k = j + 1 := ⟨k - 1, by have := hk.1; omega⟩
    simp only [dif_neg h, he, sEnc]
    rw [or80 _ hb]
    congr 2; omega
termination_by v.toInt.natAbs

end Wadec
