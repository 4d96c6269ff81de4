import Verif.Source.Base

/-! Generated by tools/rs2lean.py from src/decode/integer.rs, src/decode/indices.rs, src/decode/helpers.rs, src/decode/mod.rs.
Do not edit.  The numbers in the comments are the source lines. -/

namespace Wadec.Source

variable {R : Type} [Read R]

/-- src/decode/mod.rs:20: the trait `FromMarkerByte`; `Err` is its associated type `Error` -/
class FromMarkerByte (α : Type) (Err : outParam Type) where
  markers : List (UInt8 × α)

/-- src/decode/mod.rs:37-42 -/
def from_marker (α : Type) {Err : Type} [FromMarkerByte α Err] [From UInt8 Err] (b : UInt8) :
    Dec R Err α := do
  match List.lookup b (FromMarkerByte.markers (α := α)) with  -- 38
  | some n => return n  -- 39
  | none => Dec.err (From.from_ b)  -- 40

/-- src/decode/helpers.rs:8-12 -/
def read_byte : Dec R IoError UInt8 := do
  let mut buf := [(0 : UInt8)]  -- 9
  buf ← q (readExact buf.length)  -- 10
  return (← index buf 0)  -- 11

/-- src/decode/integer.rs:20-50 -/
def decode_u32 : Dec R DecodeU32Error UInt32 := do
  let mut result : UInt32 := 0  -- 21
  let mut shift : UInt8 := 0  -- 22
  for i in rangeIncl (1 : Int32) (5 : Int32) do  -- 25
    let byte ← q Source.read_byte  -- 26
    result := result ||| (← shl (From.from_ (byte &&& 0b01111111) : UInt32) shift)  -- 28
    let continuation_bit := byte &&& 0b10000000  -- 30
    if continuation_bit = 0 then  -- 31
      if (i = 5) ∧ ((byte &&& 0b11110000) ≠ 0) then  -- 32
        Dec.err DecodeU32Error.TooLarge  -- 39
      return result  -- 41
    shift ← add shift 7  -- 46
  Dec.err DecodeU32Error.RepresentationTooLong  -- 49

/-- src/decode/integer.rs:64-94 -/
def decode_u64 : Dec R DecodeU64Error UInt64 := do
  let mut result : UInt64 := 0  -- 65
  let mut shift : UInt8 := 0  -- 66
  for i in rangeIncl (1 : Int32) (10 : Int32) do  -- 69
    let byte ← q Source.read_byte  -- 70
    result := result ||| (← shl (From.from_ (byte &&& 0b01111111) : UInt64) shift)  -- 72
    let continuation_bit := byte &&& 0b10000000  -- 74
    if continuation_bit = 0 then  -- 75
      if (i = 10) ∧ ((byte &&& 0b01111110) ≠ 0) then  -- 76
        Dec.err DecodeU64Error.TooLarge  -- 83
      return result  -- 85
    shift ← add shift 7  -- 90
  Dec.err DecodeU64Error.RepresentationTooLong  -- 93

/-- src/decode/integer.rs:108-137 -/
def decode_i32 : Dec R DecodeI32Error Int32 := do
  let mut result : Int64 := 0  -- 109
  let mut shift : UInt8 := 0  -- 110
  let MIN : Int64 := (-2147483648 : Int32).toInt64  -- 112
  let MAX : Int64 := (2147483647 : Int32).toInt64  -- 113
  for _ in rangeIncl (1 : Int32) (5 : Int32) do  -- 116
    let byte ← q Source.read_byte  -- 117
    result := result ||| (← shl (From.from_ (byte &&& 0b01111111) : Int64) shift)  -- 119
    shift ← add shift 7  -- 120
    let continuation_bit := byte &&& 0b10000000  -- 122
    if continuation_bit = 0 then  -- 123
      if (byte &&& 0b01000000) ≠ 0 then  -- 124
        result := result ||| (← shl (~~~0 : Int64) shift)  -- 125
      if ¬ (MIN ≤ result ∧ result ≤ MAX) then  -- 128
        Dec.err DecodeI32Error.TooLarge  -- 129
      return (← unwrap_ok (tryFrom (β := Int32) result))  -- 132
  Dec.err DecodeI32Error.RepresentationTooLong  -- 136

/-- src/decode/integer.rs:151-188 -/
def decode_i64 : Dec R DecodeI64Error Int64 := do
  let mut result : Int64 := 0  -- 152
  let mut shift : UInt8 := 0  -- 153
  for _ in rangeIncl (1 : Int32) (10 : Int32) do  -- 156
    let byte ← q Source.read_byte  -- 157
    result := result ||| (← shl (From.from_ (byte &&& 0b01111111) : Int64) shift)  -- 159
    shift ← add shift 7  -- 160
    let continuation_bit := byte &&& 0b10000000  -- 162
    if continuation_bit = 0 then  -- 163
      let on_10th_byte : Bool := decide (shift ≥ 64)  -- 164
      let is_negative : Bool := decide ((byte &&& 0b01000000) ≠ 0)  -- 165
      if on_10th_byte = true then  -- 167
        let padding := byte &&& 0b00111111  -- 168
        if (is_negative = true) ∧ (padding ≠ 0b00111111) then  -- 169
          Dec.err DecodeI64Error.IncorrectSignExtension  -- 171
        if (¬ (is_negative = true)) ∧ (padding ≠ 0b00000000) then  -- 173
          Dec.err DecodeI64Error.IncorrectSignExtension  -- 175
      else if is_negative = true then
        result := result ||| (← shl (~~~0 : Int64) shift)  -- 180
      return result  -- 183
  Dec.err DecodeI64Error.RepresentationTooLong  -- 187

/-- src/decode/integer.rs:202-241 -/
def decode_s33 : Dec R DecodeS33Error Int64 := do
  let mut result : Int64 := 0  -- 203
  let mut shift : UInt8 := 0  -- 204
  for _ in rangeIncl (1 : Int32) (5 : Int32) do  -- 207
    let byte ← q Source.read_byte  -- 208
    result := result ||| (← shl (From.from_ (byte &&& 0b01111111) : Int64) shift)  -- 210
    shift ← add shift 7  -- 211
    let continuation_bit := byte &&& 0b10000000  -- 213
    if continuation_bit = 0 then  -- 214
      let on_5th_byte : Bool := decide (shift ≥ 33)  -- 215
      let is_negative : Bool := decide ((byte &&& 0b01000000) ≠ 0)  -- 216
      if on_5th_byte = true then  -- 218
        let padding := byte &&& 0b01110000  -- 219
        if (is_negative = true) ∧ (padding ≠ 0b01110000) then  -- 220
          Dec.err DecodeS33Error.IncorrectSignExtension  -- 222
        if (¬ (is_negative = true)) ∧ (padding ≠ 0b00000000) then  -- 224
          Dec.err DecodeS33Error.IncorrectSignExtension  -- 226
      if is_negative = true then  -- 230
        result := result ||| (← shl (~~~0 : Int64) shift)  -- 233
      return result  -- 236
  Dec.err DecodeS33Error.RepresentationTooLong  -- 240

/-- src/decode/indices.rs:18-21, 26 -/
def TypeIdx.decode : Dec R DecodeTypeIdxError TypeIdx := do
  let idx ← q Source.decode_u32  -- 19
  return TypeIdx.mk idx  -- 20

/-- src/decode/indices.rs:18-21, 27 -/
def FuncIdx.decode : Dec R DecodeFuncIdxError FuncIdx := do
  let idx ← q Source.decode_u32  -- 19
  return FuncIdx.mk idx  -- 20

/-- src/decode/indices.rs:18-21, 28 -/
def TableIdx.decode : Dec R DecodeTableIdxError TableIdx := do
  let idx ← q Source.decode_u32  -- 19
  return TableIdx.mk idx  -- 20

/-- src/decode/indices.rs:18-21, 29 -/
def MemIdx.decode : Dec R DecodeMemIdxError MemIdx := do
  let idx ← q Source.decode_u32  -- 19
  return MemIdx.mk idx  -- 20

/-- src/decode/indices.rs:18-21, 30 -/
def GlobalIdx.decode : Dec R DecodeGlobalIdxError GlobalIdx := do
  let idx ← q Source.decode_u32  -- 19
  return GlobalIdx.mk idx  -- 20

/-- src/decode/indices.rs:18-21, 31 -/
def ElemIdx.decode : Dec R DecodeElemIdxError ElemIdx := do
  let idx ← q Source.decode_u32  -- 19
  return ElemIdx.mk idx  -- 20

/-- src/decode/indices.rs:18-21, 32 -/
def DataIdx.decode : Dec R DecodeDataIdxError DataIdx := do
  let idx ← q Source.decode_u32  -- 19
  return DataIdx.mk idx  -- 20

/-- src/decode/indices.rs:18-21, 33 -/
def LocalIdx.decode : Dec R DecodeLocalIdxError LocalIdx := do
  let idx ← q Source.decode_u32  -- 19
  return LocalIdx.mk idx  -- 20

/-- src/decode/indices.rs:18-21, 34 -/
def LabelIdx.decode : Dec R DecodeLabelIdxError LabelIdx := do
  let idx ← q Source.decode_u32  -- 19
  return LabelIdx.mk idx  -- 20

/-- src/decode/indices.rs:18-21, 35 -/
def TagIdx.decode : Dec R DecodeTagIdxError TagIdx := do
  let idx ← q Source.decode_u32  -- 19
  return TagIdx.mk idx  -- 20

/-- src/decode/helpers.rs:74-78 -/
def decode_f32 : Dec R DecodeFloat32Error UInt32 := do
  let mut buf := List.replicate 4 (0 : UInt8)  -- 75
  buf ← q (readExact buf.length)  -- 76
  return f32_from_le_bytes buf  -- 77

/-- src/decode/helpers.rs:86-90 -/
def decode_f64 : Dec R DecodeFloat64Error UInt64 := do
  let mut buf := List.replicate 8 (0 : UInt8)  -- 87
  buf ← q (readExact buf.length)  -- 88
  return f64_from_le_bytes buf  -- 89

/-- src/decode/helpers.rs:101-121 -/
def decode_list {σ T E : Type} (parse_fn : FnMut R σ E T) : Dec R (DecodeListError E) ((List T) × σ) := do
  let mut parse_fn := parse_fn
  let len ← q Source.decode_u32  -- 109
  let mut items ← with_capacity (← unwrap_ok (tryFrom len))  -- 111
  for i in range 0 len do  -- 112
    let (elem, f1) ← q (Dec.mapErr (fun err => DecodeListError.ParseElement (position := i) (source := err)) parse_fn.run)
    parse_fn := f1
    items := items ++ [elem]  -- 117
  return (items, parse_fn.state)  -- 120

/-- src/decode/helpers.rs:156-163 -/
def decode_byte_vector : Dec R DecodeByteVectorError (List UInt8) := do
  let len ← q Source.decode_u32  -- 159
  let mut b ← vec_zeroed (← unwrap_ok (tryFrom len))  -- 160
  b ← q (readExact b.length)  -- 161
  return b  -- 162

/-- src/decode/helpers.rs:174-176 -/
def decode_name : Dec R DecodeNameError Str := do
  return (← q (tryFrom (← q Source.decode_byte_vector)))  -- 175

end Wadec.Source
