import Verif.Proof.Calculus

/-! Error types that cannot stand for a swallowed I/O error. -/

namespace Wadec

instance : Clear IoError := ⟨fun _ => rfl⟩

instance : Clear DecodeU32Error := ⟨fun e => by cases e <;> first | (rename_i e; exact Clear.clear e) | rfl⟩

instance {E : Type} [ErrInfo E] [Clear E] : Clear (DecodeListError E) :=
  ⟨fun e => by cases e <;> (rename_i e; exact Clear.clear e)⟩

instance : Clear DecodeU64Error := ⟨fun e => by cases e <;> first | (rename_i e; exact Clear.clear e) | rfl⟩
instance : Clear DecodeS33Error := ⟨fun e => by cases e <;> first | (rename_i e; exact Clear.clear e) | rfl⟩
instance : Clear DecodeTypeIdxError := ⟨fun e => by cases e <;> first | (rename_i e; exact Clear.clear e) | rfl⟩
instance : Clear InvalidAbsHeapTypeMarkerError := ⟨fun e => by cases e <;> first | (rename_i e; exact Clear.clear e) | rfl⟩
instance : Clear DecodeAbsHeapTypeError := ⟨fun e => by cases e <;> first | (rename_i e; exact Clear.clear e) | rfl⟩
instance : Clear DecodeHeapTypeError := ⟨fun e => by cases e <;> first | (rename_i e; exact Clear.clear e) | rfl⟩
instance : Clear DecodeRefTypeError := ⟨fun e => by cases e <;> first | (rename_i e; exact Clear.clear e) | rfl⟩
instance : Clear DecodeValTypeError := ⟨fun e => by cases e <;> first | (rename_i e; exact Clear.clear e) | rfl⟩
instance : Clear InvalidMutabilityByteError := ⟨fun e => by cases e <;> first | (rename_i e; exact Clear.clear e) | rfl⟩
instance : Clear DecodeStorageTypeError := ⟨fun e => by cases e <;> first | (rename_i e; exact Clear.clear e) | rfl⟩
instance : Clear DecodeFieldTypeError := ⟨fun e => by cases e <;> first | (rename_i e; exact Clear.clear e) | rfl⟩
instance : Clear DecodeResultTypeError := ⟨fun e => by cases e <;> first | (rename_i e; exact Clear.clear e) | rfl⟩
instance : Clear DecodeCompTypeError := ⟨fun e => by cases e <;> first | (rename_i e; exact Clear.clear e) | rfl⟩
instance : Clear DecodeSubTypeError := ⟨fun e => by cases e <;> first | (rename_i e; exact Clear.clear e) | rfl⟩
instance : Clear ParseLimitsError := ⟨fun e => by cases e <;> first | (rename_i e; exact Clear.clear e) | rfl⟩
instance : Clear DecodeTableTypeError := ⟨fun e => by cases e <;> first | (rename_i e; exact Clear.clear e) | rfl⟩
instance : Clear FromUtf8Error := ⟨fun e => by cases e <;> first | (rename_i e; exact Clear.clear e) | rfl⟩
instance : Clear DecodeByteVectorError := ⟨fun e => by cases e <;> first | (rename_i e; exact Clear.clear e) | rfl⟩
instance : Clear DecodeNameError := ⟨fun e => by cases e <;> first | (rename_i e; exact Clear.clear e) | rfl⟩
instance : Clear InvalidSectionIdError := ⟨fun e => by cases e <;> first | (rename_i e; exact Clear.clear e) | rfl⟩
instance : Clear DecodeSectionHeaderError := ⟨fun e => by cases e <;> first | (rename_i e; exact Clear.clear e) | rfl⟩
instance : Clear ParsePreambleError := ⟨fun e => by cases e <;> first | (rename_i e; exact Clear.clear e) | rfl⟩

end Wadec
