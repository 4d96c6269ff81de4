import Verif.Model.Display

/-! Every error text is a fixed list of lines followed by the chain of the `io::Error` that
`source()` reaches, if it reaches one (`LawfulText`).  One instance per error type, in the order of
Model/Display.lean. -/

namespace Wadec

/-- The chain of an error consists of texts that do not depend on how an `io::Error` prints,
followed by that of the `io::Error` at its end (`shown`). -/
class LawfulText (ε : Type) [ErrInfo ε] [ErrText ε] : Prop where
  chain : ∀ e : ε, ∃ own : List String, ∀ io : IoError → List String,
    ErrText.chain io e = own ++ (match ErrInfo.shown e with | some x => io x | none => [])
  root : ∀ (e : ε) (x : IoError), ErrInfo.shown e = some x → ErrInfo.root e = some x
  murky : ∀ e : ε, ErrInfo.murky e = true → ErrInfo.root e = none
  ne_nil : ∀ (e : ε) (io : IoError → List String), (∀ x, io x ≠ []) → ErrText.chain io e ≠ []

instance : LawfulText IoError where
  chain _ := ⟨[], fun _ => rfl⟩
  root _ _ h := h
  murky _ h := nomatch h
  ne_nil e _ h := h e

instance : LawfulText FromUtf8Error where
  chain _ := ⟨_, fun _ => (List.append_nil _).symm⟩
  root _ _ h := nomatch h
  murky _ h := nomatch h
  ne_nil _ _ _ := by simp [ErrText.chain]

section
variable {ε : Type} [ErrInfo ε] [ErrText ε] [LawfulText ε]

theorem LawfulText.cons (s : String) (e : ε) : ∃ own : List String, ∀ io : IoError → List String,
    s :: ErrText.chain io e = own ++ (match ErrInfo.shown e with | some x => io x | none => []) := by
  obtain ⟨own, h⟩ := LawfulText.chain e
  exact ⟨s :: own, fun io => by rw [h io]; rfl⟩

theorem LawfulText.leaf (l : List String) : ∃ own : List String, ∀ io : IoError → List String,
    l = own ++ (match (none : Option IoError) with | some x => io x | none => []) :=
  ⟨l, fun _ => (List.append_nil _).symm⟩
end

macro "texts" : tactic => `(tactic| first
  | (rename_i e; exact LawfulText.chain e) | (rename_i e; exact LawfulText.cons _ e)
  | exact LawfulText.leaf _)
instance : LawfulText DecodeU32Error where
  chain e := by cases e <;> texts
  root e x h := by cases e <;> first | (rename_i e; exact LawfulText.root e x h) | (cases h; done)
  murky e h := by
    cases e <;> first | (rename_i e; exact LawfulText.murky e h) | rfl | (cases h; done)
  ne_nil e io h := by
    cases e <;> first | (rename_i e; exact LawfulText.ne_nil e _ h) | exact List.cons_ne_nil _ _

instance : LawfulText DecodeU64Error where
  chain e := by cases e <;> texts
  root e x h := by cases e <;> first | (rename_i e; exact LawfulText.root e x h) | (cases h; done)
  murky e h := by
    cases e <;> first | (rename_i e; exact LawfulText.murky e h) | rfl | (cases h; done)
  ne_nil e io h := by
    cases e <;> first | (rename_i e; exact LawfulText.ne_nil e _ h) | exact List.cons_ne_nil _ _

instance : LawfulText DecodeI32Error where
  chain e := by cases e <;> texts
  root e x h := by cases e <;> first | (rename_i e; exact LawfulText.root e x h) | (cases h; done)
  murky e h := by
    cases e <;> first | (rename_i e; exact LawfulText.murky e h) | rfl | (cases h; done)
  ne_nil e io h := by
    cases e <;> first | (rename_i e; exact LawfulText.ne_nil e _ h) | exact List.cons_ne_nil _ _

instance : LawfulText DecodeI64Error where
  chain e := by cases e <;> texts
  root e x h := by cases e <;> first | (rename_i e; exact LawfulText.root e x h) | (cases h; done)
  murky e h := by
    cases e <;> first | (rename_i e; exact LawfulText.murky e h) | rfl | (cases h; done)
  ne_nil e io h := by
    cases e <;> first | (rename_i e; exact LawfulText.ne_nil e _ h) | exact List.cons_ne_nil _ _

instance : LawfulText DecodeS33Error where
  chain e := by cases e <;> texts
  root e x h := by cases e <;> first | (rename_i e; exact LawfulText.root e x h) | (cases h; done)
  murky e h := by
    cases e <;> first | (rename_i e; exact LawfulText.murky e h) | rfl | (cases h; done)
  ne_nil e io h := by
    cases e <;> first | (rename_i e; exact LawfulText.ne_nil e _ h) | exact List.cons_ne_nil _ _

instance : LawfulText DecodeLabelIdxError where
  chain e := by cases e <;> texts
  root e x h := by cases e <;> first | (rename_i e; exact LawfulText.root e x h) | (cases h; done)
  murky e h := by
    cases e <;> first | (rename_i e; exact LawfulText.murky e h) | rfl | (cases h; done)
  ne_nil e io h := by
    cases e <;> first | (rename_i e; exact LawfulText.ne_nil e _ h) | exact List.cons_ne_nil _ _

instance {E : Type} [ErrInfo E] [ErrText E] [LawfulText E] : LawfulText (DecodeListError E) where
  chain e := by cases e <;> texts
  root e x h := by cases e <;> first | (rename_i e; exact LawfulText.root e x h) | (cases h; done)
  murky e h := by
    cases e <;> first | (rename_i e; exact LawfulText.murky e h) | rfl | (cases h; done)
  ne_nil e io h := by
    cases e <;> first | (rename_i e; exact LawfulText.ne_nil e _ h) | exact List.cons_ne_nil _ _

instance : LawfulText DecodeFuncIdxError where
  chain e := by cases e <;> texts
  root e x h := by cases e <;> first | (rename_i e; exact LawfulText.root e x h) | (cases h; done)
  murky e h := by
    cases e <;> first | (rename_i e; exact LawfulText.murky e h) | rfl | (cases h; done)
  ne_nil e io h := by
    cases e <;> first | (rename_i e; exact LawfulText.ne_nil e _ h) | exact List.cons_ne_nil _ _

instance : LawfulText DecodeTableIdxError where
  chain e := by cases e <;> texts
  root e x h := by cases e <;> first | (rename_i e; exact LawfulText.root e x h) | (cases h; done)
  murky e h := by
    cases e <;> first | (rename_i e; exact LawfulText.murky e h) | rfl | (cases h; done)
  ne_nil e io h := by
    cases e <;> first | (rename_i e; exact LawfulText.ne_nil e _ h) | exact List.cons_ne_nil _ _

instance : LawfulText DecodeTypeIdxError where
  chain e := by cases e <;> texts
  root e x h := by cases e <;> first | (rename_i e; exact LawfulText.root e x h) | (cases h; done)
  murky e h := by
    cases e <;> first | (rename_i e; exact LawfulText.murky e h) | rfl | (cases h; done)
  ne_nil e io h := by
    cases e <;> first | (rename_i e; exact LawfulText.ne_nil e _ h) | exact List.cons_ne_nil _ _

instance : LawfulText DecodeTagIdxError where
  chain e := by cases e <;> texts
  root e x h := by cases e <;> first | (rename_i e; exact LawfulText.root e x h) | (cases h; done)
  murky e h := by
    cases e <;> first | (rename_i e; exact LawfulText.murky e h) | rfl | (cases h; done)
  ne_nil e io h := by
    cases e <;> first | (rename_i e; exact LawfulText.ne_nil e _ h) | exact List.cons_ne_nil _ _

instance : LawfulText CatchError where
  chain e := by cases e <;> texts
  root e x h := by cases e <;> first | (rename_i e; exact LawfulText.root e x h) | (cases h; done)
  murky e h := by
    cases e <;> first | (rename_i e; exact LawfulText.murky e h) | rfl | (cases h; done)
  ne_nil e io h := by
    cases e <;> first | (rename_i e; exact LawfulText.ne_nil e _ h) | exact List.cons_ne_nil _ _

instance : LawfulText BlockTypeError where
  chain e := by cases e <;> texts
  root e x h := by cases e <;> first | (rename_i e; exact LawfulText.root e x h) | (cases h; done)
  murky e h := by
    cases e <;> first | (rename_i e; exact LawfulText.murky e h) | rfl | (cases h; done)
  ne_nil e io h := by
    cases e <;> first | (rename_i e; exact LawfulText.ne_nil e _ h) | exact List.cons_ne_nil _ _

instance : LawfulText DecodeHeapTypeError where
  chain e := by cases e <;> texts
  root e x h := by cases e <;> first | (rename_i e; exact LawfulText.root e x h) | (cases h; done)
  murky e h := by
    cases e <;> first | (rename_i e; exact LawfulText.murky e h) | rfl | (cases h; done)
  ne_nil e io h := by
    cases e <;> first | (rename_i e; exact LawfulText.ne_nil e _ h) | exact List.cons_ne_nil _ _

instance : LawfulText ControlError where
  chain e := by cases e <;> texts
  root e x h := by cases e <;> first | (rename_i e; exact LawfulText.root e x h) | (cases h; done)
  murky e h := by
    cases e <;> first | (rename_i e; exact LawfulText.murky e h) | rfl | (cases h; done)
  ne_nil e io h := by
    cases e <;> first | (rename_i e; exact LawfulText.ne_nil e _ h) | exact List.cons_ne_nil _ _

instance : LawfulText ReferenceError where
  chain e := by cases e <;> texts
  root e x h := by cases e <;> first | (rename_i e; exact LawfulText.root e x h) | (cases h; done)
  murky e h := by
    cases e <;> first | (rename_i e; exact LawfulText.murky e h) | rfl | (cases h; done)
  ne_nil e io h := by
    cases e <;> first | (rename_i e; exact LawfulText.ne_nil e _ h) | exact List.cons_ne_nil _ _

instance : LawfulText DecodeDataIdxError where
  chain e := by cases e <;> texts
  root e x h := by cases e <;> first | (rename_i e; exact LawfulText.root e x h) | (cases h; done)
  murky e h := by
    cases e <;> first | (rename_i e; exact LawfulText.murky e h) | rfl | (cases h; done)
  ne_nil e io h := by
    cases e <;> first | (rename_i e; exact LawfulText.ne_nil e _ h) | exact List.cons_ne_nil _ _

instance : LawfulText DecodeElemIdxError where
  chain e := by cases e <;> texts
  root e x h := by cases e <;> first | (rename_i e; exact LawfulText.root e x h) | (cases h; done)
  murky e h := by
    cases e <;> first | (rename_i e; exact LawfulText.murky e h) | rfl | (cases h; done)
  ne_nil e io h := by
    cases e <;> first | (rename_i e; exact LawfulText.ne_nil e _ h) | exact List.cons_ne_nil _ _

instance : LawfulText AggregateError where
  chain e := by cases e <;> texts
  root e x h := by cases e <;> first | (rename_i e; exact LawfulText.root e x h) | (cases h; done)
  murky e h := by
    cases e <;> first | (rename_i e; exact LawfulText.murky e h) | rfl | (cases h; done)
  ne_nil e io h := by
    cases e <;> first | (rename_i e; exact LawfulText.ne_nil e _ h) | exact List.cons_ne_nil _ _

instance : LawfulText InvalidAbsHeapTypeMarkerError where
  chain e := by cases e <;> texts
  root e x h := by cases e <;> first | (rename_i e; exact LawfulText.root e x h) | (cases h; done)
  murky e h := by
    cases e <;> first | (rename_i e; exact LawfulText.murky e h) | rfl | (cases h; done)
  ne_nil e io h := by
    cases e <;> first | (rename_i e; exact LawfulText.ne_nil e _ h) | exact List.cons_ne_nil _ _

instance : LawfulText DecodeAbsHeapTypeError where
  chain e := by cases e <;> texts
  root e x h := by cases e <;> first | (rename_i e; exact LawfulText.root e x h) | (cases h; done)
  murky e h := by
    cases e <;> first | (rename_i e; exact LawfulText.murky e h) | rfl | (cases h; done)
  ne_nil e io h := by
    cases e <;> first | (rename_i e; exact LawfulText.ne_nil e _ h) | exact List.cons_ne_nil _ _

instance : LawfulText DecodeRefTypeError where
  chain e := by cases e <;> texts
  root e x h := by cases e <;> first | (rename_i e; exact LawfulText.root e x h) | (cases h; done)
  murky e h := by
    cases e <;> first | (rename_i e; exact LawfulText.murky e h) | rfl | (cases h; done)
  ne_nil e io h := by
    cases e <;> first | (rename_i e; exact LawfulText.ne_nil e _ h) | exact List.cons_ne_nil _ _

instance : LawfulText DecodeValTypeError where
  chain e := by cases e <;> texts
  root e x h := by cases e <;> first | (rename_i e; exact LawfulText.root e x h) | (cases h; done)
  murky e h := by
    cases e <;> first | (rename_i e; exact LawfulText.murky e h) | rfl | (cases h; done)
  ne_nil e io h := by
    cases e <;> first | (rename_i e; exact LawfulText.ne_nil e _ h) | exact List.cons_ne_nil _ _

instance : LawfulText ParametricError where
  chain e := by cases e <;> texts
  root e x h := by cases e <;> first | (rename_i e; exact LawfulText.root e x h) | (cases h; done)
  murky e h := by
    cases e <;> first | (rename_i e; exact LawfulText.murky e h) | rfl | (cases h; done)
  ne_nil e io h := by
    cases e <;> first | (rename_i e; exact LawfulText.ne_nil e _ h) | exact List.cons_ne_nil _ _

instance : LawfulText DecodeLocalIdxError where
  chain e := by cases e <;> texts
  root e x h := by cases e <;> first | (rename_i e; exact LawfulText.root e x h) | (cases h; done)
  murky e h := by
    cases e <;> first | (rename_i e; exact LawfulText.murky e h) | rfl | (cases h; done)
  ne_nil e io h := by
    cases e <;> first | (rename_i e; exact LawfulText.ne_nil e _ h) | exact List.cons_ne_nil _ _

instance : LawfulText DecodeGlobalIdxError where
  chain e := by cases e <;> texts
  root e x h := by cases e <;> first | (rename_i e; exact LawfulText.root e x h) | (cases h; done)
  murky e h := by
    cases e <;> first | (rename_i e; exact LawfulText.murky e h) | rfl | (cases h; done)
  ne_nil e io h := by
    cases e <;> first | (rename_i e; exact LawfulText.ne_nil e _ h) | exact List.cons_ne_nil _ _

instance : LawfulText VariableError where
  chain e := by cases e <;> texts
  root e x h := by cases e <;> first | (rename_i e; exact LawfulText.root e x h) | (cases h; done)
  murky e h := by
    cases e <;> first | (rename_i e; exact LawfulText.murky e h) | rfl | (cases h; done)
  ne_nil e io h := by
    cases e <;> first | (rename_i e; exact LawfulText.ne_nil e _ h) | exact List.cons_ne_nil _ _

instance : LawfulText TableError where
  chain e := by cases e <;> texts
  root e x h := by cases e <;> first | (rename_i e; exact LawfulText.root e x h) | (cases h; done)
  murky e h := by
    cases e <;> first | (rename_i e; exact LawfulText.murky e h) | rfl | (cases h; done)
  ne_nil e io h := by
    cases e <;> first | (rename_i e; exact LawfulText.ne_nil e _ h) | exact List.cons_ne_nil _ _

instance : LawfulText DecodeMemIdxError where
  chain e := by cases e <;> texts
  root e x h := by cases e <;> first | (rename_i e; exact LawfulText.root e x h) | (cases h; done)
  murky e h := by
    cases e <;> first | (rename_i e; exact LawfulText.murky e h) | rfl | (cases h; done)
  ne_nil e io h := by
    cases e <;> first | (rename_i e; exact LawfulText.ne_nil e _ h) | exact List.cons_ne_nil _ _

instance : LawfulText MemargError where
  chain e := by cases e <;> texts
  root e x h := by cases e <;> first | (rename_i e; exact LawfulText.root e x h) | (cases h; done)
  murky e h := by
    cases e <;> first | (rename_i e; exact LawfulText.murky e h) | rfl | (cases h; done)
  ne_nil e io h := by
    cases e <;> first | (rename_i e; exact LawfulText.ne_nil e _ h) | exact List.cons_ne_nil _ _

instance : LawfulText MemoryError where
  chain e := by cases e <;> texts
  root e x h := by cases e <;> first | (rename_i e; exact LawfulText.root e x h) | (cases h; done)
  murky e h := by
    cases e <;> first | (rename_i e; exact LawfulText.murky e h) | rfl | (cases h; done)
  ne_nil e io h := by
    cases e <;> first | (rename_i e; exact LawfulText.ne_nil e _ h) | exact List.cons_ne_nil _ _

instance : LawfulText DecodeFloat32Error where
  chain e := by cases e <;> texts
  root e x h := by cases e <;> first | (rename_i e; exact LawfulText.root e x h) | (cases h; done)
  murky e h := by
    cases e <;> first | (rename_i e; exact LawfulText.murky e h) | rfl | (cases h; done)
  ne_nil e io h := by
    cases e <;> first | (rename_i e; exact LawfulText.ne_nil e _ h) | exact List.cons_ne_nil _ _

instance : LawfulText DecodeFloat64Error where
  chain e := by cases e <;> texts
  root e x h := by cases e <;> first | (rename_i e; exact LawfulText.root e x h) | (cases h; done)
  murky e h := by
    cases e <;> first | (rename_i e; exact LawfulText.murky e h) | rfl | (cases h; done)
  ne_nil e io h := by
    cases e <;> first | (rename_i e; exact LawfulText.ne_nil e _ h) | exact List.cons_ne_nil _ _

instance : LawfulText NumericError where
  chain e := by cases e <;> texts
  root e x h := by cases e <;> first | (rename_i e; exact LawfulText.root e x h) | (cases h; done)
  murky e h := by
    cases e <;> first | (rename_i e; exact LawfulText.murky e h) | rfl | (cases h; done)
  ne_nil e io h := by
    cases e <;> first | (rename_i e; exact LawfulText.ne_nil e _ h) | exact List.cons_ne_nil _ _

instance : LawfulText LaneIdxError where
  chain e := by cases e <;> texts
  root e x h := by cases e <;> first | (rename_i e; exact LawfulText.root e x h) | (cases h; done)
  murky e h := by
    cases e <;> first | (rename_i e; exact LawfulText.murky e h) | rfl | (cases h; done)
  ne_nil e io h := by
    cases e <;> first | (rename_i e; exact LawfulText.ne_nil e _ h) | exact List.cons_ne_nil _ _

instance : LawfulText VectorError where
  chain e := by cases e <;> texts
  root e x h := by cases e <;> first | (rename_i e; exact LawfulText.root e x h) | (cases h; done)
  murky e h := by
    cases e <;> first | (rename_i e; exact LawfulText.murky e h) | rfl | (cases h; done)
  ne_nil e io h := by
    cases e <;> first | (rename_i e; exact LawfulText.ne_nil e _ h) | exact List.cons_ne_nil _ _

instance : LawfulText ParseError where
  chain e := by cases e <;> texts
  root e x h := by cases e <;> first | (rename_i e; exact LawfulText.root e x h) | (cases h; done)
  murky e h := by
    cases e <;> first | (rename_i e; exact LawfulText.murky e h) | rfl | (cases h; done)
  ne_nil e io h := by
    cases e <;> first | (rename_i e; exact LawfulText.ne_nil e _ h) | exact List.cons_ne_nil _ _

instance : LawfulText ParseExpressionError where
  chain e := by cases e <;> texts
  root e x h := by cases e <;> first | (rename_i e; exact LawfulText.root e x h) | (cases h; done)
  murky e h := by
    cases e <;> first | (rename_i e; exact LawfulText.murky e h) | rfl | (cases h; done)
  ne_nil e io h := by
    cases e <;> first | (rename_i e; exact LawfulText.ne_nil e _ h) | exact List.cons_ne_nil _ _

instance : LawfulText DecodeByteVectorError where
  chain e := by cases e <;> texts
  root e x h := by cases e <;> first | (rename_i e; exact LawfulText.root e x h) | (cases h; done)
  murky e h := by
    cases e <;> first | (rename_i e; exact LawfulText.murky e h) | rfl | (cases h; done)
  ne_nil e io h := by
    cases e <;> first | (rename_i e; exact LawfulText.ne_nil e _ h) | exact List.cons_ne_nil _ _

instance : LawfulText DecodeNameError where
  chain e := by cases e <;> texts
  root e x h := by cases e <;> first | (rename_i e; exact LawfulText.root e x h) | (cases h; done)
  murky e h := by
    cases e <;> first | (rename_i e; exact LawfulText.murky e h) | rfl | (cases h; done)
  ne_nil e io h := by
    cases e <;> first | (rename_i e; exact LawfulText.ne_nil e _ h) | exact List.cons_ne_nil _ _

instance : LawfulText DecodeStorageTypeError where
  chain e := by cases e <;> texts
  root e x h := by cases e <;> first | (rename_i e; exact LawfulText.root e x h) | (cases h; done)
  murky e h := by
    cases e <;> first | (rename_i e; exact LawfulText.murky e h) | rfl | (cases h; done)
  ne_nil e io h := by
    cases e <;> first | (rename_i e; exact LawfulText.ne_nil e _ h) | exact List.cons_ne_nil _ _

instance : LawfulText InvalidMutabilityByteError where
  chain e := by cases e <;> texts
  root e x h := by cases e <;> first | (rename_i e; exact LawfulText.root e x h) | (cases h; done)
  murky e h := by
    cases e <;> first | (rename_i e; exact LawfulText.murky e h) | rfl | (cases h; done)
  ne_nil e io h := by
    cases e <;> first | (rename_i e; exact LawfulText.ne_nil e _ h) | exact List.cons_ne_nil _ _

instance : LawfulText DecodeFieldTypeError where
  chain e := by cases e <;> texts
  root e x h := by cases e <;> first | (rename_i e; exact LawfulText.root e x h) | (cases h; done)
  murky e h := by
    cases e <;> first | (rename_i e; exact LawfulText.murky e h) | rfl | (cases h; done)
  ne_nil e io h := by
    cases e <;> first | (rename_i e; exact LawfulText.ne_nil e _ h) | exact List.cons_ne_nil _ _

instance : LawfulText DecodeResultTypeError where
  chain e := by cases e <;> texts
  root e x h := by cases e <;> first | (rename_i e; exact LawfulText.root e x h) | (cases h; done)
  murky e h := by
    cases e <;> first | (rename_i e; exact LawfulText.murky e h) | rfl | (cases h; done)
  ne_nil e io h := by
    cases e <;> first | (rename_i e; exact LawfulText.ne_nil e _ h) | exact List.cons_ne_nil _ _

instance : LawfulText DecodeCompTypeError where
  chain e := by cases e <;> texts
  root e x h := by cases e <;> first | (rename_i e; exact LawfulText.root e x h) | (cases h; done)
  murky e h := by
    cases e <;> first | (rename_i e; exact LawfulText.murky e h) | rfl | (cases h; done)
  ne_nil e io h := by
    cases e <;> first | (rename_i e; exact LawfulText.ne_nil e _ h) | exact List.cons_ne_nil _ _

instance : LawfulText InvalidPackTypeMarkerError where
  chain e := by cases e <;> texts
  root e x h := by cases e <;> first | (rename_i e; exact LawfulText.root e x h) | (cases h; done)
  murky e h := by
    cases e <;> first | (rename_i e; exact LawfulText.murky e h) | rfl | (cases h; done)
  ne_nil e io h := by
    cases e <;> first | (rename_i e; exact LawfulText.ne_nil e _ h) | exact List.cons_ne_nil _ _

instance : LawfulText ParseLimitsError where
  chain e := by cases e <;> texts
  root e x h := by cases e <;> first | (rename_i e; exact LawfulText.root e x h) | (cases h; done)
  murky e h := by
    cases e <;> first | (rename_i e; exact LawfulText.murky e h) | rfl | (cases h; done)
  ne_nil e io h := by
    cases e <;> first | (rename_i e; exact LawfulText.ne_nil e _ h) | exact List.cons_ne_nil _ _

instance : LawfulText DecodeTableTypeError where
  chain e := by cases e <;> texts
  root e x h := by cases e <;> first | (rename_i e; exact LawfulText.root e x h) | (cases h; done)
  murky e h := by
    cases e <;> first | (rename_i e; exact LawfulText.murky e h) | rfl | (cases h; done)
  ne_nil e io h := by
    cases e <;> first | (rename_i e; exact LawfulText.ne_nil e _ h) | exact List.cons_ne_nil _ _

instance : LawfulText DecodeMemoryTypeError where
  chain e := by cases e <;> texts
  root e x h := by cases e <;> first | (rename_i e; exact LawfulText.root e x h) | (cases h; done)
  murky e h := by
    cases e <;> first | (rename_i e; exact LawfulText.murky e h) | rfl | (cases h; done)
  ne_nil e io h := by
    cases e <;> first | (rename_i e; exact LawfulText.ne_nil e _ h) | exact List.cons_ne_nil _ _

instance : LawfulText DecodeGlobalTypeError where
  chain e := by cases e <;> texts
  root e x h := by cases e <;> first | (rename_i e; exact LawfulText.root e x h) | (cases h; done)
  murky e h := by
    cases e <;> first | (rename_i e; exact LawfulText.murky e h) | rfl | (cases h; done)
  ne_nil e io h := by
    cases e <;> first | (rename_i e; exact LawfulText.ne_nil e _ h) | exact List.cons_ne_nil _ _

instance : LawfulText DecodeTagTypeError where
  chain e := by cases e <;> texts
  root e x h := by cases e <;> first | (rename_i e; exact LawfulText.root e x h) | (cases h; done)
  murky e h := by
    cases e <;> first | (rename_i e; exact LawfulText.murky e h) | rfl | (cases h; done)
  ne_nil e io h := by
    cases e <;> first | (rename_i e; exact LawfulText.ne_nil e _ h) | exact List.cons_ne_nil _ _

instance : LawfulText DecodeExternTypeError where
  chain e := by cases e <;> texts
  root e x h := by cases e <;> first | (rename_i e; exact LawfulText.root e x h) | (cases h; done)
  murky e h := by
    cases e <;> first | (rename_i e; exact LawfulText.murky e h) | rfl | (cases h; done)
  ne_nil e io h := by
    cases e <;> first | (rename_i e; exact LawfulText.ne_nil e _ h) | exact List.cons_ne_nil _ _

instance : LawfulText DecodeSubTypeError where
  chain e := by cases e <;> texts
  root e x h := by cases e <;> first | (rename_i e; exact LawfulText.root e x h) | (cases h; done)
  murky e h := by
    cases e <;> first | (rename_i e; exact LawfulText.murky e h) | rfl | (cases h; done)
  ne_nil e io h := by
    cases e <;> first | (rename_i e; exact LawfulText.ne_nil e _ h) | exact List.cons_ne_nil _ _

instance : LawfulText DecodeRecTypeError where
  chain e := by cases e <;> texts
  root e x h := by cases e <;> first | (rename_i e; exact LawfulText.root e x h) | (cases h; done)
  murky e h := by
    cases e <;> first | (rename_i e; exact LawfulText.murky e h) | rfl | (cases h; done)
  ne_nil e io h := by
    cases e <;> first | (rename_i e; exact LawfulText.ne_nil e _ h) | exact List.cons_ne_nil _ _

instance : LawfulText DecodeCodeLocalsError where
  chain e := by cases e <;> texts
  root e x h := by cases e <;> first | (rename_i e; exact LawfulText.root e x h) | (cases h; done)
  murky e h := by
    cases e <;> first | (rename_i e; exact LawfulText.murky e h) | rfl | (cases h; done)
  ne_nil e io h := by
    cases e <;> first | (rename_i e; exact LawfulText.ne_nil e _ h) | exact List.cons_ne_nil _ _

instance : LawfulText DecodeCodeError where
  chain e := by cases e <;> texts
  root e x h := by cases e <;> first | (rename_i e; exact LawfulText.root e x h) | (cases h; done)
  murky e h := by
    cases e <;> first | (rename_i e; exact LawfulText.murky e h) | rfl | (cases h; done)
  ne_nil e io h := by
    cases e <;> first | (rename_i e; exact LawfulText.ne_nil e _ h) | exact List.cons_ne_nil _ _

instance : LawfulText DecodeCodeSectionError where
  chain e := by cases e <;> texts
  root e x h := by cases e <;> first | (rename_i e; exact LawfulText.root e x h) | (cases h; done)
  murky e h := by
    cases e <;> first | (rename_i e; exact LawfulText.murky e h) | rfl | (cases h; done)
  ne_nil e io h := by
    cases e <;> first | (rename_i e; exact LawfulText.ne_nil e _ h) | exact List.cons_ne_nil _ _

instance : LawfulText DecodeCustomSectionError where
  chain e := by cases e <;> texts
  root e x h := by cases e <;> first | (rename_i e; exact LawfulText.root e x h) | (cases h; done)
  murky e h := by
    cases e <;> first | (rename_i e; exact LawfulText.murky e h) | rfl | (cases h; done)
  ne_nil e io h := by
    cases e <;> first | (rename_i e; exact LawfulText.ne_nil e _ h) | exact List.cons_ne_nil _ _

instance : LawfulText DecodeDataSegmentError where
  chain e := by cases e <;> texts
  root e x h := by cases e <;> first | (rename_i e; exact LawfulText.root e x h) | (cases h; done)
  murky e h := by
    cases e <;> first | (rename_i e; exact LawfulText.murky e h) | rfl | (cases h; done)
  ne_nil e io h := by
    cases e <;> first | (rename_i e; exact LawfulText.ne_nil e _ h) | exact List.cons_ne_nil _ _

instance : LawfulText DecodeDataSectionError where
  chain e := by cases e <;> texts
  root e x h := by cases e <;> first | (rename_i e; exact LawfulText.root e x h) | (cases h; done)
  murky e h := by
    cases e <;> first | (rename_i e; exact LawfulText.murky e h) | rfl | (cases h; done)
  ne_nil e io h := by
    cases e <;> first | (rename_i e; exact LawfulText.ne_nil e _ h) | exact List.cons_ne_nil _ _

instance : LawfulText DecodeDataCountSectionError where
  chain e := by cases e <;> texts
  root e x h := by cases e <;> first | (rename_i e; exact LawfulText.root e x h) | (cases h; done)
  murky e h := by
    cases e <;> first | (rename_i e; exact LawfulText.murky e h) | rfl | (cases h; done)
  ne_nil e io h := by
    cases e <;> first | (rename_i e; exact LawfulText.ne_nil e _ h) | exact List.cons_ne_nil _ _

instance : LawfulText DecodeElementKindError where
  chain e := by cases e <;> texts
  root e x h := by cases e <;> first | (rename_i e; exact LawfulText.root e x h) | (cases h; done)
  murky e h := by
    cases e <;> first | (rename_i e; exact LawfulText.murky e h) | rfl | (cases h; done)
  ne_nil e io h := by
    cases e <;> first | (rename_i e; exact LawfulText.ne_nil e _ h) | exact List.cons_ne_nil _ _

instance : LawfulText DecodeElementError where
  chain e := by cases e <;> texts
  root e x h := by cases e <;> first | (rename_i e; exact LawfulText.root e x h) | (cases h; done)
  murky e h := by
    cases e <;> first | (rename_i e; exact LawfulText.murky e h) | rfl | (cases h; done)
  ne_nil e io h := by
    cases e <;> first | (rename_i e; exact LawfulText.ne_nil e _ h) | exact List.cons_ne_nil _ _

instance : LawfulText DecodeElementSectionError where
  chain e := by cases e <;> texts
  root e x h := by cases e <;> first | (rename_i e; exact LawfulText.root e x h) | (cases h; done)
  murky e h := by
    cases e <;> first | (rename_i e; exact LawfulText.murky e h) | rfl | (cases h; done)
  ne_nil e io h := by
    cases e <;> first | (rename_i e; exact LawfulText.ne_nil e _ h) | exact List.cons_ne_nil _ _

instance : LawfulText InvalidExportDescMarkerByte where
  chain e := by cases e <;> texts
  root e x h := by cases e <;> first | (rename_i e; exact LawfulText.root e x h) | (cases h; done)
  murky e h := by
    cases e <;> first | (rename_i e; exact LawfulText.murky e h) | rfl | (cases h; done)
  ne_nil e io h := by
    cases e <;> first | (rename_i e; exact LawfulText.ne_nil e _ h) | exact List.cons_ne_nil _ _

instance : LawfulText DecodeExportError where
  chain e := by cases e <;> texts
  root e x h := by cases e <;> first | (rename_i e; exact LawfulText.root e x h) | (cases h; done)
  murky e h := by
    cases e <;> first | (rename_i e; exact LawfulText.murky e h) | rfl | (cases h; done)
  ne_nil e io h := by
    cases e <;> first | (rename_i e; exact LawfulText.ne_nil e _ h) | exact List.cons_ne_nil _ _

instance : LawfulText DecodeExportSectionError where
  chain e := by cases e <;> texts
  root e x h := by cases e <;> first | (rename_i e; exact LawfulText.root e x h) | (cases h; done)
  murky e h := by
    cases e <;> first | (rename_i e; exact LawfulText.murky e h) | rfl | (cases h; done)
  ne_nil e io h := by
    cases e <;> first | (rename_i e; exact LawfulText.ne_nil e _ h) | exact List.cons_ne_nil _ _

instance : LawfulText DecodeFunctionSectionError where
  chain e := by cases e <;> texts
  root e x h := by cases e <;> first | (rename_i e; exact LawfulText.root e x h) | (cases h; done)
  murky e h := by
    cases e <;> first | (rename_i e; exact LawfulText.murky e h) | rfl | (cases h; done)
  ne_nil e io h := by
    cases e <;> first | (rename_i e; exact LawfulText.ne_nil e _ h) | exact List.cons_ne_nil _ _

instance : LawfulText DecodeGlobalError where
  chain e := by cases e <;> texts
  root e x h := by cases e <;> first | (rename_i e; exact LawfulText.root e x h) | (cases h; done)
  murky e h := by
    cases e <;> first | (rename_i e; exact LawfulText.murky e h) | rfl | (cases h; done)
  ne_nil e io h := by
    cases e <;> first | (rename_i e; exact LawfulText.ne_nil e _ h) | exact List.cons_ne_nil _ _

instance : LawfulText DecodeGlobalSectionError where
  chain e := by cases e <;> texts
  root e x h := by cases e <;> first | (rename_i e; exact LawfulText.root e x h) | (cases h; done)
  murky e h := by
    cases e <;> first | (rename_i e; exact LawfulText.murky e h) | rfl | (cases h; done)
  ne_nil e io h := by
    cases e <;> first | (rename_i e; exact LawfulText.ne_nil e _ h) | exact List.cons_ne_nil _ _

instance : LawfulText DecodeImportError where
  chain e := by cases e <;> texts
  root e x h := by cases e <;> first | (rename_i e; exact LawfulText.root e x h) | (cases h; done)
  murky e h := by
    cases e <;> first | (rename_i e; exact LawfulText.murky e h) | rfl | (cases h; done)
  ne_nil e io h := by
    cases e <;> first | (rename_i e; exact LawfulText.ne_nil e _ h) | exact List.cons_ne_nil _ _

instance : LawfulText DecodeImportSectionError where
  chain e := by cases e <;> texts
  root e x h := by cases e <;> first | (rename_i e; exact LawfulText.root e x h) | (cases h; done)
  murky e h := by
    cases e <;> first | (rename_i e; exact LawfulText.murky e h) | rfl | (cases h; done)
  ne_nil e io h := by
    cases e <;> first | (rename_i e; exact LawfulText.ne_nil e _ h) | exact List.cons_ne_nil _ _

instance : LawfulText DecodeMemorySectionError where
  chain e := by cases e <;> texts
  root e x h := by cases e <;> first | (rename_i e; exact LawfulText.root e x h) | (cases h; done)
  murky e h := by
    cases e <;> first | (rename_i e; exact LawfulText.murky e h) | rfl | (cases h; done)
  ne_nil e io h := by
    cases e <;> first | (rename_i e; exact LawfulText.ne_nil e _ h) | exact List.cons_ne_nil _ _

instance : LawfulText DecodeStartSectionError where
  chain e := by cases e <;> texts
  root e x h := by cases e <;> first | (rename_i e; exact LawfulText.root e x h) | (cases h; done)
  murky e h := by
    cases e <;> first | (rename_i e; exact LawfulText.murky e h) | rfl | (cases h; done)
  ne_nil e io h := by
    cases e <;> first | (rename_i e; exact LawfulText.ne_nil e _ h) | exact List.cons_ne_nil _ _

instance : LawfulText DecodeTableError where
  chain e := by cases e <;> texts
  root e x h := by cases e <;> first | (rename_i e; exact LawfulText.root e x h) | (cases h; done)
  murky e h := by
    cases e <;> first | (rename_i e; exact LawfulText.murky e h) | rfl | (cases h; done)
  ne_nil e io h := by
    cases e <;> first | (rename_i e; exact LawfulText.ne_nil e _ h) | exact List.cons_ne_nil _ _

instance : LawfulText DecodeTableSectionError where
  chain e := by cases e <;> texts
  root e x h := by cases e <;> first | (rename_i e; exact LawfulText.root e x h) | (cases h; done)
  murky e h := by
    cases e <;> first | (rename_i e; exact LawfulText.murky e h) | rfl | (cases h; done)
  ne_nil e io h := by
    cases e <;> first | (rename_i e; exact LawfulText.ne_nil e _ h) | exact List.cons_ne_nil _ _

instance : LawfulText DecodeTagSectionError where
  chain e := by cases e <;> texts
  root e x h := by cases e <;> first | (rename_i e; exact LawfulText.root e x h) | (cases h; done)
  murky e h := by
    cases e <;> first | (rename_i e; exact LawfulText.murky e h) | rfl | (cases h; done)
  ne_nil e io h := by
    cases e <;> first | (rename_i e; exact LawfulText.ne_nil e _ h) | exact List.cons_ne_nil _ _

instance : LawfulText DecodeTypeSectionError where
  chain e := by cases e <;> texts
  root e x h := by cases e <;> first | (rename_i e; exact LawfulText.root e x h) | (cases h; done)
  murky e h := by
    cases e <;> first | (rename_i e; exact LawfulText.murky e h) | rfl | (cases h; done)
  ne_nil e io h := by
    cases e <;> first | (rename_i e; exact LawfulText.ne_nil e _ h) | exact List.cons_ne_nil _ _

instance : LawfulText InvalidSectionIdError where
  chain e := by cases e <;> texts
  root e x h := by cases e <;> first | (rename_i e; exact LawfulText.root e x h) | (cases h; done)
  murky e h := by
    cases e <;> first | (rename_i e; exact LawfulText.murky e h) | rfl | (cases h; done)
  ne_nil e io h := by
    cases e <;> first | (rename_i e; exact LawfulText.ne_nil e _ h) | exact List.cons_ne_nil _ _

instance : LawfulText ParsePreambleError where
  chain e := by cases e <;> texts
  root e x h := by cases e <;> first | (rename_i e; exact LawfulText.root e x h) | (cases h; done)
  murky e h := by
    cases e <;> first | (rename_i e; exact LawfulText.murky e h) | rfl | (cases h; done)
  ne_nil e io h := by
    cases e <;> first | (rename_i e; exact LawfulText.ne_nil e _ h) | exact List.cons_ne_nil _ _

instance : LawfulText DecodeSectionHeaderError where
  chain e := by cases e <;> texts
  root e x h := by cases e <;> first | (rename_i e; exact LawfulText.root e x h) | (cases h; done)
  murky e h := by
    cases e <;> first | (rename_i e; exact LawfulText.murky e h) | rfl | (cases h; done)
  ne_nil e io h := by
    cases e <;> first | (rename_i e; exact LawfulText.ne_nil e _ h) | exact List.cons_ne_nil _ _

instance : LawfulText DecodeModuleError where
  chain e := by cases e <;> texts
  root e x h := by cases e <;> first | (rename_i e; exact LawfulText.root e x h) | (cases h; done)
  murky e h := by
    cases e <;> first | (rename_i e; exact LawfulText.murky e h) | rfl | (cases h; done)
  ne_nil e io h := by
    cases e <;> first | (rename_i e; exact LawfulText.ne_nil e _ h) | exact List.cons_ne_nil _ _

end Wadec
