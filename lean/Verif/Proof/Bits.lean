import Verif.Model.Integer
import Verif.Spec.Binary

/-! Bit-level facts used by the LEB128 proofs. -/

namespace Wadec

/-- To prove something about all bytes it is enough to prove it for the 256 byte values. -/
theorem forall_u8 {p : UInt8 → Prop} (h : ∀ n : Fin 256, p ⟨⟨n⟩⟩) : ∀ b, p b := fun b => h b.toBitVec.toFin

set_option maxRecDepth 100000 in
theorem and7F (b : UInt8) : (b &&& 0x7F).toNat = b.toNat % 128 := by
  revert b; apply forall_u8; decide

set_option maxRecDepth 100000 in
theorem and80 (b : UInt8) : b &&& 0x80 = 0 ↔ b.toNat < 128 := by
  revert b; apply forall_u8; decide

set_option maxRecDepth 100000 in
theorem andF0 (b : UInt8) : b.toNat < 128 → (b &&& 0xF0 ≠ 0 ↔ ¬ b.toNat < 16) := by
  revert b; apply forall_u8; decide

set_option maxRecDepth 100000 in
theorem and7E (b : UInt8) : b.toNat < 128 → (b &&& 0x7E ≠ 0 ↔ ¬ b.toNat < 2) := by
  revert b; apply forall_u8; decide

set_option maxRecDepth 100000 in
theorem and40 (b : UInt8) : b.toNat < 128 → (b &&& 0x40 ≠ 0 ↔ 64 ≤ b.toNat) := by
  revert b; apply forall_u8; decide

set_option maxRecDepth 100000 in
theorem and3F (b : UInt8) : b.toNat < 128 → 64 ≤ b.toNat → (b &&& 0x3F ≠ 0x3F ↔ b.toNat ≠ 127) := by
  revert b; apply forall_u8; decide

set_option maxRecDepth 100000 in
theorem and3F0 (b : UInt8) : b.toNat < 64 → (b &&& 0x3F ≠ 0x00 ↔ b.toNat ≠ 0) := by
  revert b; apply forall_u8; decide

set_option maxRecDepth 100000 in
theorem and70 (b : UInt8) : b.toNat < 128 → 64 ≤ b.toNat → (b &&& 0x70 ≠ 0x70 ↔ b.toNat < 112) := by
  revert b; apply forall_u8; decide

set_option maxRecDepth 100000 in
theorem and700 (b : UInt8) : b.toNat < 64 → (b &&& 0x70 ≠ 0x00 ↔ 16 ≤ b.toNat) := by
  revert b; apply forall_u8; decide

/-- Adding a group of bits above the bits already there. -/
theorem or_shift_toNat {w s : Nat} (r : BitVec w) (x : BitVec w) (hr : r.toNat < 2 ^ s) (hs : s ≤ w) :
    (r ||| (x <<< s)).toNat = r.toNat + 2 ^ s * (x.toNat % 2 ^ (w - s)) := by
  have hw : 2 ^ w = 2 ^ s * 2 ^ (w - s) := by rw [← Nat.pow_add]; congr 1; omega
  rw [BitVec.toNat_or, BitVec.toNat_shiftLeft, Nat.shiftLeft_eq, Nat.mul_comm x.toNat, hw,
    Nat.mul_mod_mul_left, Nat.or_comm, ← Nat.two_pow_add_eq_or_of_lt hr, Nat.add_comm]

/-- One step of the accumulation of a LEB128 number. -/
theorem leb_step {w s : Nat} (r : BitVec w) (b : UInt8) (hr : r.toNat < 2 ^ s) (hs : s ≤ w)
    (hw : 7 ≤ w) :
    (r ||| ((b &&& 0x7F).toBitVec.setWidth w <<< s)).toNat =
      r.toNat + 2 ^ s * ((b.toNat % 128) % 2 ^ (w - s)) := by
  rw [or_shift_toNat r _ hr hs, BitVec.toNat_setWidth]
  have : (b &&& 0x7F).toBitVec.toNat = b.toNat % 128 := and7F b
  rw [this, Nat.mod_eq_of_lt (a := b.toNat % 128) (b := 2 ^ w)]
  have : 2 ^ 7 ≤ 2 ^ w := Nat.pow_le_pow_right (by decide) hw
  omega

theorem toNat_allOnes_mod (k : Nat) (h : k ≤ 64) : (BitVec.allOnes 64).toNat % 2 ^ k = 2 ^ k - 1 := by
  have h64 : 2 ^ 64 = 2 ^ k * 2 ^ (64 - k) := by rw [← Nat.pow_add]; congr 1; omega
  have hp : 0 < 2 ^ k := Nat.two_pow_pos k
  have hq : 0 < 2 ^ (64 - k) := Nat.two_pow_pos _
  rw [BitVec.toNat_allOnes, h64]
  obtain ⟨q, hq'⟩ : ∃ q, 2 ^ (64 - k) = q + 1 := ⟨2 ^ (64 - k) - 1, by omega⟩
  rw [hq', Nat.mul_add, Nat.mul_one, Nat.add_sub_assoc (by omega), Nat.mul_add_mod,
    Nat.mod_eq_of_lt (by omega)]

/-- Sign extension. -/
theorem sext_toInt {s : Nat} (r : BitVec 64) (hr : r.toNat < 2 ^ s) (hs : s < 64) :
    (r ||| (BitVec.allOnes 64 <<< s)).toInt = (r.toNat : Int) - 2 ^ s := by
  have h := or_shift_toNat r (BitVec.allOnes 64) hr (by omega)
  rw [toNat_allOnes_mod _ (by omega)] at h
  have hp : 2 ^ s * 2 ^ (64 - s) = 2 ^ 64 := by rw [← Nat.pow_add]; congr 1; omega
  have h1 : 0 < 2 ^ (64 - s) := Nat.two_pow_pos _
  have h2 : 2 ^ s * (2 ^ (64 - s) - 1) = 2 ^ 64 - 2 ^ s := by
    rw [Nat.mul_sub, hp, Nat.mul_one]
  rw [h2] at h
  have h3 : 2 ^ s ≤ 2 ^ 63 := Nat.pow_le_pow_right (by decide) (by omega)
  rw [BitVec.toInt_eq_toNat_cond, h]
  have h4 : (2 : Nat) ^ 64 = 2 * 2 ^ 63 := by decide
  rw [if_neg (by omega)]
  have h5 : ((2 ^ s : Nat) : Int) = 2 ^ s := by push_cast; rfl
  rw [← h5]
  omega

theorem toInt_of_lt (r : BitVec 64) (h : r.toNat < 2 ^ 63) : r.toInt = r.toNat := by
  rw [BitVec.toInt_eq_toNat_cond, if_pos (by omega)]

theorem toInt_of_ge (r : BitVec 64) (h : 2 ^ 63 ≤ r.toNat) : r.toInt = (r.toNat : Int) - 2 ^ 64 := by
  rw [BitVec.toInt_eq_toNat_cond, if_neg (by omega)]; rfl

end Wadec
