import Verif.Model.Integer

/-! The encoders which the unit tests of src/decode/integer.rs use to make their inputs (src/decode/integer.rs:248-295, under
`#[cfg(test)]`), on the machine integers they are written for. -/

namespace Wadec

theorem shiftRight7_toNat32 (v : UInt32) : (v >>> 7).toNat = v.toNat / 128 := by
  rw [UInt32.toNat_shiftRight, Nat.shiftRight_eq_div_pow]; rfl

theorem shiftRight7_toNat64 (v : UInt64) : (v >>> 7).toNat = v.toNat / 128 := by
  rw [UInt64.toNat_shiftRight, Nat.shiftRight_eq_div_pow]; rfl

theorem shiftRight7_toInt64 (v : Int64) : (v >>> 7).toInt = v.toInt / 128 := by
  rw [← Int64.toInt_toBitVec, Int64.toBitVec_shiftRight]
  have : (7 : Int64).toBitVec.smod 64 = 7#64 := by decide
  rw [this, BitVec.sshiftRight', BitVec.toInt_sshiftRight, Int.shiftRight_eq_div_pow]
  rfl

/-- src/decode/integer.rs:248-262 `encode_u32`: a turn of the loop pushes a byte -/
def encodeU32 (value : UInt32) : List UInt8 :=
  let byte := (value &&& 0x7F).toUInt8
  let value' := value >>> 7
  if _h : value' ≠ 0 then (byte ||| 0x80) :: encodeU32 value' else [byte]
termination_by value.toNat
decreasing_by
  have h0 : value' ≠ 0 := by assumption
  have h1 : value'.toNat = value.toNat / 128 := shiftRight7_toNat32 value
  have h2 : value'.toNat ≠ 0 := fun e => h0 (UInt32.toNat_inj.1 e)
  change value'.toNat < _
  omega

/-- src/decode/integer.rs:264-278 `encode_u64` -/
def encodeU64 (value : UInt64) : List UInt8 :=
  let byte := (value &&& 0x7F).toUInt8
  let value' := value >>> 7
  if _h : value' ≠ 0 then (byte ||| 0x80) :: encodeU64 value' else [byte]
termination_by value.toNat
decreasing_by
  have h0 : value' ≠ 0 := by assumption
  have h1 : value'.toNat = value.toNat / 128 := shiftRight7_toNat64 value
  have h2 : value'.toNat ≠ 0 := fun e => h0 (UInt64.toNat_inj.1 e)
  change value'.toNat < _
  omega

theorem sleb_step (value : Int64) (h : ¬ ((value >>> 7 = 0 ∧ (value &&& 0x7F).toUInt64.toUInt8 &&& 0x40 = 0) ∨
    (value >>> 7 = -1 ∧ (value &&& 0x7F).toUInt64.toUInt8 &&& 0x40 ≠ 0))) : (value >>> 7).toInt.natAbs < value.toInt.natAbs := by
  rw [shiftRight7_toInt64]
  have h0 : value.toInt ≠ 0 := fun e => h (.inl (by
    have e : value = 0 := Int64.toInt_inj.1 e
    rw [e]; decide))
  have h1 : value.toInt ≠ -1 := fun e => h (.inr (by
    have e : value = -1 := Int64.toInt_inj.1 e
    rw [e]; decide))
  omega

/-- src/decode/integer.rs:280-295 `encode_sleb64`: `>>=` on `i64` keeps the sign -/
def encodeSleb64 (value : Int64) : List UInt8 :=
  let byte := (value &&& 0x7F).toUInt64.toUInt8
  let value' := value >>> 7
  if _h : (value' = 0 ∧ byte &&& 0x40 = 0) ∨ (value' = -1 ∧ byte &&& 0x40 ≠ 0) then [byte] else (byte ||| 0x80) :: encodeSleb64 value'
termination_by value.toInt.natAbs
decreasing_by
  exact sleb_step value (by assumption)

end Wadec
