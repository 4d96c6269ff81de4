import Verif.Model.Integer

/-! Model of src/decode/indices.rs, of src/decode/helpers.rs (except `decode_expr`, see
Model/Instructions.lean) and of `FromMarkerByte` (src/decode/mod.rs). -/

namespace Wadec

variable {R : Type} [Read R] {ε α σ : Type}

/-! ### src/decode/indices.rs:11-35 (`define_index_decoder!`) -/

/-- src/decode/indices.rs:18-22, 26 -/
def TypeIdx.decode : Dec R DecodeTypeIdxError TypeIdx := do
  let idx ← decodeU32.mapErr DecodeTypeIdxError.mk; pure ⟨idx⟩
/-- src/decode/indices.rs:18-22, 27 -/
def FuncIdx.decode : Dec R DecodeFuncIdxError FuncIdx := do
  let idx ← decodeU32.mapErr DecodeFuncIdxError.mk; pure ⟨idx⟩
/-- src/decode/indices.rs:18-22, 28 -/
def TableIdx.decode : Dec R DecodeTableIdxError TableIdx := do
  let idx ← decodeU32.mapErr DecodeTableIdxError.mk; pure ⟨idx⟩
/-- src/decode/indices.rs:18-22, 29 -/
def MemIdx.decode : Dec R DecodeMemIdxError MemIdx := do
  let idx ← decodeU32.mapErr DecodeMemIdxError.mk; pure ⟨idx⟩
/-- src/decode/indices.rs:18-22, 30 -/
def GlobalIdx.decode : Dec R DecodeGlobalIdxError GlobalIdx := do
  let idx ← decodeU32.mapErr DecodeGlobalIdxError.mk; pure ⟨idx⟩
/-- src/decode/indices.rs:18-22, 31 -/
def ElemIdx.decode : Dec R DecodeElemIdxError ElemIdx := do
  let idx ← decodeU32.mapErr DecodeElemIdxError.mk; pure ⟨idx⟩
/-- src/decode/indices.rs:18-22, 32 -/
def DataIdx.decode : Dec R DecodeDataIdxError DataIdx := do
  let idx ← decodeU32.mapErr DecodeDataIdxError.mk; pure ⟨idx⟩
/-- src/decode/indices.rs:18-22, 33 -/
def LocalIdx.decode : Dec R DecodeLocalIdxError LocalIdx := do
  let idx ← decodeU32.mapErr DecodeLocalIdxError.mk; pure ⟨idx⟩
/-- src/decode/indices.rs:18-22, 34 -/
def LabelIdx.decode : Dec R DecodeLabelIdxError LabelIdx := do
  let idx ← decodeU32.mapErr DecodeLabelIdxError.mk; pure ⟨idx⟩
/-- src/decode/indices.rs:18-22, 35 -/
def TagIdx.decode : Dec R DecodeTagIdxError TagIdx := do
  let idx ← decodeU32.mapErr DecodeTagIdxError.mk; pure ⟨idx⟩

/-! ### Floats: src/decode/helpers.rs:68-90 -/

/-- `from_le_bytes` at src/decode/helpers.rs:77 and 89: `u32::from_le_bytes` (`f32::from_le_bytes` is this followed by `f32::from_bits`), any number
of bytes: the first byte is the least significant one. -/
def leNat : List UInt8 → Nat
  | [] => 0
  | b :: bs => b.toNat + 256 * leNat bs

/-- src/decode/helpers.rs:74-78 `decode_f32`, on bit patterns -/
def decodeF32 : Dec R DecodeFloat32Error UInt32 := do
  let buf ← (readExact 4).mapErr DecodeFloat32Error.ReadPayload
  pure (UInt32.ofNat (leNat buf))

/-- src/decode/helpers.rs:86-90 `decode_f64`, on bit patterns -/
def decodeF64 : Dec R DecodeFloat64Error UInt64 := do
  let buf ← (readExact 8).mapErr DecodeFloat64Error.ReadPayload
  pure (UInt64.ofNat (leNat buf))

/-! ### Lists: src/decode/helpers.rs:92-121 -/

/-- The loop `for i in 0..len` of `decode_list` (src/decode/helpers.rs:112-118).  `parse_fn` is an
`FnMut` closure; `σ` is the state it captures.  Arguments: elements left, position, state,
elements so far. -/
def decodeListLoop (parse_fn : σ → Dec R ε (α × σ)) :
    Nat → UInt32 → σ → List α → Dec R (DecodeListError ε) (List α × σ)
  | 0, _, st, items => pure (items, st)
  | n + 1, i, st, items => do
    let (elem, st') ← (parse_fn st).mapErr (fun err => DecodeListError.ParseElement i err)
    decodeListLoop parse_fn n (i + 1) st' (items ++ [elem])

/-- src/decode/helpers.rs:101-121 `decode_list`, with the state of the closure explicit.  The
capacity of the vector is requested before the first element is read; `len.try_into().unwrap()`
does not fail (usize has at least 32 bits). -/
def decodeListS (parse_fn : σ → Dec R ε (α × σ)) (st : σ) :
    Dec R (DecodeListError ε) (List α × σ) := do
  let len ← decodeU32.mapErr DecodeListError.DecodeLength
  Dec.reserve len.toNat
  decodeListLoop parse_fn len.toNat 0 st []

/-- src/decode/helpers.rs:101-121 `decode_list` with a stateless element decoder -/
def decodeList (parse_fn : Dec R ε α) : Dec R (DecodeListError ε) (List α) := do
  let (items, _) ← decodeListS (fun (_ : Unit) => do let x ← parse_fn; pure (x, ())) ()
  pure items

/-! ### Byte vectors and names: src/decode/helpers.rs:148-176 -/

/-- src/decode/helpers.rs:156-163 `decode_byte_vector` -/
def decodeByteVector : Dec R DecodeByteVectorError (List UInt8) := do
  let len ← decodeU32.mapErr DecodeByteVectorError.DecodeLength
  Dec.reserve len.toNat
  (readExact len.toNat).mapErr DecodeByteVectorError.ReadElements

/-- A UTF-8 continuation byte `0b10xxxxxx` (`(b as i8) < -64` in std; for src/decode/helpers.rs:174-176). -/
def isCont (b : UInt8) : Bool := 0x80 ≤ b && b ≤ 0xBF

/-- The second byte std accepts after `first` in a three-byte sequence
(core/src/str/validations.rs). -/
def second3 (first b : UInt8) : Bool :=
  (first == 0xE0 && 0xA0 ≤ b && b ≤ 0xBF) || (0xE1 ≤ first && first ≤ 0xEC && 0x80 ≤ b && b ≤ 0xBF)
  || (first == 0xED && 0x80 ≤ b && b ≤ 0x9F) || (0xEE ≤ first && first ≤ 0xEF && 0x80 ≤ b && b ≤ 0xBF)

/-- The second byte std accepts after `first` in a four-byte sequence
(core/src/str/validations.rs). -/
def second4 (first b : UInt8) : Bool :=
  (first == 0xF0 && 0x90 ≤ b && b ≤ 0xBF) || (0xF1 ≤ first && first ≤ 0xF3 && 0x80 ≤ b && b ≤ 0xBF)
  || (first == 0xF4 && 0x80 ≤ b && b ≤ 0x8F)

/-- std's `run_utf8_validation` (core/src/str/validations.rs), which `String::try_from(Vec<u8>)`
runs: `none` if valid, otherwise `(valid_up_to, error_len)`.  `off` is the current index.  (std's
word-at-a-time fast path for ASCII is not modelled: it skips bytes below 0x80 only.) -/
def utf8Check : Nat → List UInt8 → Option (Nat × Option Nat)
  | _, [] => none
  | off, b :: rest =>
    if b < 0x80 then utf8Check (off + 1) rest
    else if 0xC2 ≤ b ∧ b ≤ 0xDF then
      match rest with
      | [] => some (off, none)
      | c1 :: rest1 => if isCont c1 then utf8Check (off + 2) rest1 else some (off, some 1)
    else if 0xE0 ≤ b ∧ b ≤ 0xEF then
      match rest with
      | [] => some (off, none)
      | c1 :: rest1 =>
        if second3 b c1 then
          match rest1 with
          | [] => some (off, none)
          | c2 :: rest2 => if isCont c2 then utf8Check (off + 3) rest2 else some (off, some 2)
        else some (off, some 1)
    else if 0xF0 ≤ b ∧ b ≤ 0xF4 then
      match rest with
      | [] => some (off, none)
      | c1 :: rest1 =>
        if second4 b c1 then
          match rest1 with
          | [] => some (off, none)
          | c2 :: rest2 =>
            if isCont c2 then
              match rest2 with
              | [] => some (off, none)
              | c3 :: rest3 => if isCont c3 then utf8Check (off + 4) rest3 else some (off, some 3)
            else some (off, some 2)
        else some (off, some 1)
    else some (off, some 1)

/-- src/decode/helpers.rs:174-176 `decode_name`: `Vec<u8>::try_into::<String>()` is
`String::from_utf8`. -/
def decodeName : Dec R DecodeNameError Str := do
  let bytes ← decodeByteVector.mapErr DecodeNameError.DecodeByteVector
  match utf8Check 0 bytes with
  | none => pure ⟨bytes⟩
  | some (valid_up_to, error_len) => Dec.err (.Utf8 ⟨bytes, valid_up_to, error_len⟩)

/-! ### src/decode/mod.rs:20-43 `FromMarkerByte` -/

/-- src/decode/mod.rs:37-42 `from_marker`: lookup in the (ordered, perfect-hash) marker map of the type. -/
def fromMarker {α : Type} (markers : List (UInt8 × α)) (b : UInt8) : Option α :=
  markers.lookup b

end Wadec
