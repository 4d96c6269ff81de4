import Verif.Model.Module

/-! `decode_module` on a reader with a `read_exact` of its own (C81).

`Read::read_exact` is a provided method that a reader may override (`&[u8]`, `Cursor`, `BufReader`,
`Stdin` do).  `decode_module` calls the reader's `read_exact` for the preamble and the section headers;
the contents of a section are read through `Take` (src/decode/module.rs:225), and `Take` and `Chain` do not
override it, so there the default of Model/Io is what runs, on the reader's `read`.  The definitions
below are those of Model/Integer and Model/Module with `exact` in the places of the former; with the
default for `exact` they are the same functions (`by_default`, Proof/OwnExact). -/

namespace Wadec

variable {R : Type} [Read R] (exact : Nat → Dec R IoError (List UInt8))

/-- src/decode/helpers.rs:8-12 `read_byte`, on the reader itself -/
def readByteBy : Dec R IoError UInt8 := do
  let buf ← exact 1
  match buf with
  | [b] => pure b
  | _ => Dec.panic

/-- src/decode/integer.rs:25-47: body of the loop of `decode_u32`, on the reader itself -/
def decodeU32LoopBy : Nat → Nat → BitVec 32 → Nat → Dec R DecodeU32Error UInt32
  | 0, _, _, _ => Dec.err .RepresentationTooLong
  | rem + 1, i, result, shift => do
    let byte ← (readByteBy exact).mapErr DecodeU32Error.Io
    if 32 ≤ shift then Dec.panic else
      let result := result ||| ((byte &&& 0x7F).toBitVec.setWidth 32 <<< shift)
      if byte &&& 0x80 = 0 then
        if i = 5 ∧ byte &&& 0xF0 ≠ 0 then Dec.err .TooLarge
        else pure (UInt32.ofBitVec result)
      else if 255 < shift + 7 then Dec.panic
      else decodeU32LoopBy rem (i + 1) result (shift + 7)

/-- src/decode/integer.rs:20-50 `decode_u32`, on the reader itself -/
def decodeU32By : Dec R DecodeU32Error UInt32 := decodeU32LoopBy exact 5 1 0 0

/-- src/decode/module.rs:362-371 `parse_preamble` -/
def parsePreambleBy : Dec R ParsePreambleError Unit := do
  let preamble ← (exact 8).mapErr ParsePreambleError.Io
  if preamble ≠ EXPECTED_PREAMBLE then Dec.err (.Unexpected preamble)
  else pure ()

/-- src/decode/module.rs:394-397: the rest of `decode_section_header` after the ID byte -/
def sectionHeaderRestBy (id : UInt8) : Dec R DecodeSectionHeaderError (Option SectionHeader) :=
  match fromMarker SectionKind.markers id with
  | none => Dec.err (.InvalidSectionId ⟨id⟩)
  | some kind => do
    let size ← (decodeU32By exact).mapErr DecodeSectionHeaderError.DecodeSectionSize
    pure (some ⟨kind, size⟩)

/-- src/decode/module.rs:385-398 `decode_section_header` -/
def decodeSectionHeaderBy : Dec R DecodeSectionHeaderError (Option SectionHeader) := fun r =>
  match readByteBy exact r with
  | (.ok id, r') => sectionHeaderRestBy exact id r'
  | (.err e, r') =>
    if e = .unexpectedEof then (.ok none, r') else (.err (.ReadSectionIdByte e), r')
  | (.panic, r') => (.panic, r')
  | (.fuel, r') => (.fuel, r')

/-- src/decode/module.rs:223-319: the loop over the sections -/
def sectionLoopBy : Nat → LoopState → Dec R DecodeModuleError LoopState
  | 0, _ => Dec.outOfFuel
  | n + 1, st => do
    let h ← (decodeSectionHeaderBy exact).mapErr DecodeModuleError.DecodeSectionHeader
    match h with
    | none => pure st
    | some h => do
      let st ← decodeSection h st
      sectionLoopBy n st

/-- src/decode/module.rs:207-351 `decode_module` -/
def decodeModuleBy : Dec R DecodeModuleError Module := fun r =>
  (do
    (parsePreambleBy exact).mapErr DecodeModuleError.ParsePreamble
    let st ← sectionLoopBy exact (Read.weight r + 1) ⟨Module.default, false, false⟩
    finalChecks st : Dec R DecodeModuleError Module) r

end Wadec
