import Verif.Model.Errors
import Verif.Spec.Module
import Verif.Spec.Reader

/-! What a `DecodeModuleError` says about the place of the failure, and the places of an input it can
refer to. -/

namespace Wadec

/-- The kind of section whose own decoder produced the error. -/
def DecodeModuleError.inner : DecodeModuleError → Option SectionKind
  | .DecodeCustomSection _ => some .Custom
  | .DecodeTypeSection _ => some .Type
  | .DecodeImportSection _ => some .Import
  | .DecodeFunctionSection _ => some .Function
  | .DecodeTableSection _ => some .Table
  | .DecodeMemorySection _ => some .Memory
  | .DecodeGlobalSection _ => some .Global
  | .DecodeExportSection _ => some .Export
  | .DecodeStartSection _ => some .Start
  | .DecodeElementSection _ => some .Element
  | .DecodeDatacountSection _ => some .DataCount
  | .DecodeCodeSection _ => some .Code
  | .DecodeDataSection _ => some .Data
  | .DecodeTagSection _ => some .Tag
  | _ => none

/-- The `position` in an error of kind `DecodeListError::ParseElement`. -/
def DecodeListError.entry {ε : Type} : DecodeListError ε → Option UInt32
  | .ParseElement i _ => some i
  | .DecodeLength _ => none

/-- For an error about an entry of a section: the section and the position of the entry. -/
def DecodeModuleError.entry : DecodeModuleError → Option (SectionKind × UInt32)
  | .DecodeTypeSection (.DecodeList e) => e.entry.map (.Type, ·)
  | .DecodeImportSection (.DecodeList e) => e.entry.map (.Import, ·)
  | .DecodeFunctionSection (.DecodeList e) => e.entry.map (.Function, ·)
  | .DecodeTableSection (.DecodeList e) => e.entry.map (.Table, ·)
  | .DecodeMemorySection (.DecodeList e) => e.entry.map (.Memory, ·)
  | .DecodeTagSection (.DecodeList e) => e.entry.map (.Tag, ·)
  | .DecodeGlobalSection (.DecodeList e) => e.entry.map (.Global, ·)
  | .DecodeExportSection (.DecodeList e) => e.entry.map (.Export, ·)
  | .DecodeElementSection (.DecodeList e) => e.entry.map (.Element, ·)
  | .DecodeCodeSection (.DecodeList e) => e.entry.map (.Code, ·)
  | .DecodeDataSection (.DecodeList e) => e.entry.map (.Data, ·)
  | _ => none

namespace Spec

/-- The bytes are one entry of a section of the given kind. -/
def IsEntry : SectionKind → Bytes → Prop
  | .Type, b => ∃ x, BRecType b x
  | .Import, b => ∃ x, BImport b x
  | .Function, b => ∃ x, BTypeIdx b x
  | .Table, b => ∃ x, BTable b x
  | .Memory, b => ∃ x, BMemType b x
  | .Tag, b => ∃ x, BTagType b x
  | .Global, b => ∃ x, BGlobal b x
  | .Export, b => ∃ x, BExport b x
  | .Element, b => ∃ x, BElem b x
  | .Code, b => ∃ x, BCode b x
  | .Data, b => ∃ x, BData b x
  | _, _ => False

/-- The bytes are `n` consecutive entries of a section of the given kind. -/
inductive Entries (k : SectionKind) : Bytes → Nat → Prop
  | nil : Entries k [] 0
  | cons {b bs : Bytes} {n : Nat} : IsEntry k b → Entries k bs n → Entries k (b ++ bs) (n + 1)

/-- The sections that consist of a count and that many entries. -/
def isListKind : SectionKind → Bool
  | .Custom | .Start | .DataCount => false
  | _ => true

/-- No byte string of `P` starts the bytes `bs`. -/
def NoStart (P : Bytes → Prop) (bs : Bytes) : Prop := ∀ p, P p → ¬ p <+: bs

/-- The input consists of the preamble, sections `secs` that may open a module, and `rest`. -/
inductive Behind : Bytes → List Section → Bytes → Prop
  | mk {bs rest : Bytes} {secs : List (UInt32 × Section)} : BSeq BSection bs secs →
      Acceptable (secs.map Prod.snd) → Behind (preamble ++ (bs ++ rest)) (secs.map Prod.snd) rest

/-- Between `s` and `s'` the bytes `bs` have been taken from the reader; bytes delivered before and
after a failure count alike. -/
def Took (s s' : Src) (bs : Bytes) : Prop := Src.stream s.evs = bs ++ Src.stream s'.evs

end Spec
end Wadec
