import Verif.Check.Base

/-! The unit tests of src/decode/integer.rs:322-497, run on the model by the kernel.  These are not
claims; they are checks that the model is a model of this code. -/

namespace Wadec.Check
open Wadec

set_option maxRecDepth 100000

/-- src/decode/integer.rs:248-278 `encode_u32`, `encode_u64` (test helpers) -/
def encodeU : Nat → Nat → List UInt8
  | 0, _ => []
  | k + 1, n => if n < 128 then [UInt8.ofNat n] else UInt8.ofNat (n % 128 + 128) :: encodeU k (n / 128)

/-- src/decode/integer.rs:280-295 `encode_sleb64` (test helper) -/
def encodeS : Nat → Int → List UInt8
  | 0, _ => []
  | k + 1, n =>
    let byte := n % 128
    let rest := n / 128
    if (rest = 0 ∧ byte < 64) ∨ (rest = -1 ∧ 64 ≤ byte) then [UInt8.ofNat byte.toNat]
    else UInt8.ofNat (byte.toNat + 128) :: encodeS k rest

/-- `read_*_from(bytes).unwrap() == v` -/
def reads {ε α : Type} [DecidableEq α] (f : Dec Src ε α) (bs : List UInt8) (v : α) : Bool :=
  match (f (Src.ofBytes bs)).1 with | .ok a => decide (a = v) | _ => false
/-- `read_*_from(bytes).unwrap_err()` is `x` -/
def fails {ε α : Type} [DecidableEq ε] (f : Dec Src ε α) (bs : List UInt8) (x : ε) : Bool :=
  match (f (Src.ofBytes bs)).1 with | .err e => decide (e = x) | _ => false

/-- `read_u32_decodes_simple_values` -/
example : [0, 127, 128, 4294967295].all (fun n => reads decodeU32 (encodeU 10 n) (UInt32.ofNat n)) = true := by
  decide +kernel
/-- `read_u32_rejects_payload_bits_in_last_byte` -/
example : fails decodeU32 [0xFF, 0xFF, 0xFF, 0xFF, 0x10] .TooLarge = true := by decide +kernel
/-- `read_u32_accepts_extended_zero` -/
example : reads decodeU32 [0x80, 0x00] 0 = true := by decide +kernel
/-- `read_u32_rejects_representation_too_long` -/
example : fails decodeU32 [0x80, 0x80, 0x80, 0x80, 0x80] .RepresentationTooLong = true := by decide +kernel

/-- `read_u64_decodes_simple_values` -/
example : [0, 127, 128, 18446744073709551615].all
    (fun n => reads decodeU64 (encodeU 10 n) (UInt64.ofNat n)) = true := by decide +kernel
/-- `read_u64_rejects_payload_bits_in_last_byte` -/
example : fails decodeU64 (List.replicate 9 0xFF ++ [0x02]) .TooLarge = true := by decide +kernel
/-- `read_u64_accepts_extended_zero` -/
example : reads decodeU64 [0x80, 0x00] 0 = true := by decide +kernel
/-- `read_u64_rejects_representation_too_long` -/
example : fails decodeU64 (List.replicate 10 0x80) .RepresentationTooLong = true := by decide +kernel

/-- `read_i32_decodes_edge_values` -/
example : ([0, 1, -1, 2147483647, -2147483648] : List Int).all
    (fun n => reads decodeI32 (encodeS 10 n) (Int32.ofInt n)) = true := by decide +kernel
/-- `read_i32_accepts_non_minimal_encoding_for_negative_one` -/
example : reads decodeI32 [0xFF, 0x7F] (-1) = true := by decide +kernel
/-- `read_i32_rejects_out_of_range_positive` -/
example : fails decodeI32 (encodeS 10 2147483648) .TooLarge = true := by decide +kernel
/-- `read_i32_rejects_out_of_range_negative` -/
example : fails decodeI32 (encodeS 10 (-2147483649)) .TooLarge = true := by decide +kernel
/-- `read_i32_rejects_representation_too_long` -/
example : fails decodeI32 [0x80, 0x80, 0x80, 0x80, 0x80] .RepresentationTooLong = true := by decide +kernel

/-- `read_i64_decodes_edge_values` -/
example : ([0, 1, -1, 9223372036854775807, -9223372036854775808] : List Int).all
    (fun n => reads decodeI64 (encodeS 10 n) (Int64.ofInt n)) = true := by decide +kernel
/-- `read_i64_accepts_extended_negative_encoding` -/
example : reads decodeI64 (0xFF :: encodeS 10 (-1)) (-1) = true := by decide +kernel
/-- `read_i64_accepts_extended_zero` -/
example : reads decodeI64 [0x80, 0x00] 0 = true := by decide +kernel
/-- `read_i64_rejects_incorrect_negative_padding` -/
example : encodeS 10 (-9223372036854775808) = List.replicate 9 0x80 ++ [0x7F] ∧
    fails decodeI64 (List.replicate 9 0x80 ++ [0x7E]) .IncorrectSignExtension = true := by decide +kernel
/-- `read_i64_rejects_incorrect_positive_padding` -/
example : fails decodeI64 (List.replicate 9 0x80 ++ [0x02]) .IncorrectSignExtension = true := by decide +kernel
/-- `read_i64_rejects_representation_too_long` -/
example : fails decodeI64 (List.replicate 10 0x80) .RepresentationTooLong = true := by decide +kernel
/-- `read_i64_accepts_full_length_negative_min` -/
example : reads decodeI64 (List.replicate 9 0x80 ++ [0x7F]) (-9223372036854775808) = true := by decide +kernel
/-- `read_i64_accepts_full_length_negative_min_plus_one` -/
example : reads decodeI64 ([0x81] ++ List.replicate 8 0x80 ++ [0x7F]) (-9223372036854775807) = true := by
  decide +kernel
/-- `read_i64_accepts_full_length_positive_max` -/
example : reads decodeI64 (List.replicate 9 0xFF ++ [0x00]) 9223372036854775807 = true := by decide +kernel

/-- `read_s33_decodes_edge_values` -/
example : ([0, 1, -1, -4294967296, 4294967295] : List Int).all
    (fun n => reads decodeS33 (encodeS 10 n) (Int64.ofInt n)) = true := by decide +kernel
/-- `read_s33_rejects_incorrect_positive_padding` -/
example : fails decodeS33 [0x80, 0x80, 0x80, 0x80, 0x10] .IncorrectSignExtension = true := by decide +kernel
/-- `read_s33_rejects_incorrect_negative_padding` -/
example : fails decodeS33 [0xFF, 0xFF, 0xFF, 0xFF, 0x6F] .IncorrectSignExtension = true := by decide +kernel
/-- `read_s33_rejects_representation_too_long` -/
example : fails decodeS33 (List.replicate 5 0x80) .RepresentationTooLong = true := by decide +kernel

end Wadec.Check
