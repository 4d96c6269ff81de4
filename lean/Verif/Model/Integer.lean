import Verif.Model.Errors

/-! Model of src/decode/integer.rs: LEB128 integers.

The accumulators (`u32`, `u64`, `i64`) are `BitVec`s; `|` and `<<` are their bit operations.  A
shift by at least the width, and an overflow of `shift: u8`, panic in a checked build and are
explicit `panic` branches here.  The first argument of each loop is the number of iterations
left. -/

namespace Wadec

variable {R : Type} [Read R]

/-- src/decode/integer.rs:25-47: body of the loop of `decode_u32`; `i` is the loop variable. -/
def decodeU32Loop : Nat → Nat → BitVec 32 → Nat → Dec R DecodeU32Error UInt32
  | 0, _, _, _ => Dec.err .RepresentationTooLong
  | rem + 1, i, result, shift => do
    let byte ← readByte.mapErr DecodeU32Error.Io
    if 32 ≤ shift then Dec.panic else
      let result := result ||| ((byte &&& 0x7F).toBitVec.setWidth 32 <<< shift)
      if byte &&& 0x80 = 0 then
        if i = 5 ∧ byte &&& 0xF0 ≠ 0 then Dec.err .TooLarge
        else pure (UInt32.ofBitVec result)
      else if 255 < shift + 7 then Dec.panic
      else decodeU32Loop rem (i + 1) result (shift + 7)

/-- src/decode/integer.rs:20-50 `decode_u32` -/
def decodeU32 : Dec R DecodeU32Error UInt32 := decodeU32Loop 5 1 0 0

/-- src/decode/integer.rs:69-91: body of the loop of `decode_u64`. -/
def decodeU64Loop : Nat → Nat → BitVec 64 → Nat → Dec R DecodeU64Error UInt64
  | 0, _, _, _ => Dec.err .RepresentationTooLong
  | rem + 1, i, result, shift => do
    let byte ← readByte.mapErr DecodeU64Error.Io
    if 64 ≤ shift then Dec.panic else
      let result := result ||| ((byte &&& 0x7F).toBitVec.setWidth 64 <<< shift)
      if byte &&& 0x80 = 0 then
        if i = 10 ∧ byte &&& 0x7E ≠ 0 then Dec.err .TooLarge
        else pure (UInt64.ofBitVec result)
      else if 255 < shift + 7 then Dec.panic
      else decodeU64Loop rem (i + 1) result (shift + 7)

/-- src/decode/integer.rs:64-94 `decode_u64` -/
def decodeU64 : Dec R DecodeU64Error UInt64 := decodeU64Loop 10 1 0 0

/-- src/decode/integer.rs:116-134: body of the loop of `decode_i32`.  `i32::try_from(result)`
fails (and `unwrap` panics) exactly if the value is outside the range of `i32`. -/
def decodeI32Loop : Nat → BitVec 64 → Nat → Dec R DecodeI32Error Int32
  | 0, _, _ => Dec.err .RepresentationTooLong
  | rem + 1, result, shift => do
    let byte ← readByte.mapErr DecodeI32Error.Io
    if 64 ≤ shift then Dec.panic else
      let result := result ||| ((byte &&& 0x7F).toBitVec.setWidth 64 <<< shift)
      if 255 < shift + 7 then Dec.panic else
        let shift := shift + 7
        if byte &&& 0x80 = 0 then
          if byte &&& 0x40 ≠ 0 ∧ 64 ≤ shift then Dec.panic else
            let result := if byte &&& 0x40 ≠ 0 then
              result ||| (BitVec.allOnes 64 <<< shift) else result
            if ¬ (-2147483648 ≤ result.toInt ∧ result.toInt ≤ 2147483647) then Dec.err .TooLarge
            else if -2147483648 ≤ result.toInt ∧ result.toInt ≤ 2147483647 then
              pure (Int32.ofInt result.toInt)
            else Dec.panic
        else decodeI32Loop rem result shift

/-- src/decode/integer.rs:108-137 `decode_i32` -/
def decodeI32 : Dec R DecodeI32Error Int32 := decodeI32Loop 5 0 0

/-- src/decode/integer.rs:156-185: body of the loop of `decode_i64`. -/
def decodeI64Loop : Nat → BitVec 64 → Nat → Dec R DecodeI64Error Int64
  | 0, _, _ => Dec.err .RepresentationTooLong
  | rem + 1, result, shift => do
    let byte ← readByte.mapErr DecodeI64Error.Io
    if 64 ≤ shift then Dec.panic else
      let result := result ||| ((byte &&& 0x7F).toBitVec.setWidth 64 <<< shift)
      if 255 < shift + 7 then Dec.panic else
        let shift := shift + 7
        if byte &&& 0x80 = 0 then
          if 64 ≤ shift then
            if byte &&& 0x40 ≠ 0 ∧ byte &&& 0x3F ≠ 0x3F then Dec.err .IncorrectSignExtension
            else if ¬ byte &&& 0x40 ≠ 0 ∧ byte &&& 0x3F ≠ 0x00 then Dec.err .IncorrectSignExtension
            else pure (Int64.ofBitVec result)
          else if byte &&& 0x40 ≠ 0 then
            pure (Int64.ofBitVec (result ||| (BitVec.allOnes 64 <<< shift)))
          else pure (Int64.ofBitVec result)
        else decodeI64Loop rem result shift

/-- src/decode/integer.rs:151-188 `decode_i64` -/
def decodeI64 : Dec R DecodeI64Error Int64 := decodeI64Loop 10 0 0

/-- src/decode/integer.rs:207-238: body of the loop of `decode_s33`. -/
def decodeS33Loop : Nat → BitVec 64 → Nat → Dec R DecodeS33Error Int64
  | 0, _, _ => Dec.err .RepresentationTooLong
  | rem + 1, result, shift => do
    let byte ← readByte.mapErr DecodeS33Error.Io
    if 64 ≤ shift then Dec.panic else
      let result := result ||| ((byte &&& 0x7F).toBitVec.setWidth 64 <<< shift)
      if 255 < shift + 7 then Dec.panic else
        let shift := shift + 7
        if byte &&& 0x80 = 0 then
          if 33 ≤ shift ∧ byte &&& 0x40 ≠ 0 ∧ byte &&& 0x70 ≠ 0x70 then
            Dec.err .IncorrectSignExtension
          else if 33 ≤ shift ∧ ¬ byte &&& 0x40 ≠ 0 ∧ byte &&& 0x70 ≠ 0x00 then
            Dec.err .IncorrectSignExtension
          else if byte &&& 0x40 ≠ 0 then
            if 64 ≤ shift then Dec.panic
            else pure (Int64.ofBitVec (result ||| (BitVec.allOnes 64 <<< shift)))
          else pure (Int64.ofBitVec result)
        else decodeS33Loop rem result shift

/-- src/decode/integer.rs:202-241 `decode_s33` -/
def decodeS33 : Dec R DecodeS33Error Int64 := decodeS33Loop 5 0 0

end Wadec
