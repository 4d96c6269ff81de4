import Verif.Proof.Text
import Verif.Spec.Texts

/-! An error that contains an `io::Error` and does not show it ends with one of `cutTexts` (C60).  One
instance per error type, in the order of Model/Display.lean. -/

namespace Wadec

open Spec

/-- A list of messages ends, whatever an `io::Error` shows, with one of `cutTexts`. -/
def Cut (f : (IoError → List String) → List String) : Prop :=
  ∃ pre, ∃ t ∈ cutTexts, ∀ io, f io = pre ++ [t]

class CutText (ε : Type) [ErrInfo ε] [ErrText ε] : Prop where
  cut : ∀ (e : ε) (x : IoError), ErrInfo.root e = some x → ErrInfo.shown e = none →
    Cut (fun io => ErrText.chain io e)

instance : CutText IoError where
  cut _ _ _ h := nomatch h

instance : CutText FromUtf8Error where
  cut _ _ h := nomatch h

theorem CutText.cons {ε : Type} [ErrInfo ε] [ErrText ε] [CutText ε] (s : String) (e : ε) (x : IoError)
    (h1 : ErrInfo.root e = some x) (h2 : ErrInfo.shown e = none) :
    Cut (fun io => s :: ErrText.chain io e) := by
  obtain ⟨pre, t, ht, h⟩ := CutText.cut e x h1 h2
  exact ⟨s :: pre, t, ht, fun io => congrArg (s :: ·) (h io)⟩

/-- A variant that hides its cause. -/
theorem CutText.here (t : String) (h : t ∈ cutTexts) : Cut (fun _ => [t]) := ⟨[], t, h, fun _ => rfl⟩

instance : CutText DecodeU32Error where
  cut e x h1 h2 := by
    cases e <;> first
      | (cases h1; done)
      | (cases h2; done)
      | (rename_i e; exact CutText.cut e x h1 h2)
      | (rename_i e; exact CutText.cons _ e x h1 h2)
      | (refine CutText.here _ ?_; simp [cutTexts]; done)

instance : CutText DecodeU64Error where
  cut e x h1 h2 := by
    cases e <;> first
      | (cases h1; done)
      | (cases h2; done)
      | (rename_i e; exact CutText.cut e x h1 h2)
      | (rename_i e; exact CutText.cons _ e x h1 h2)
      | (refine CutText.here _ ?_; simp [cutTexts]; done)

instance : CutText DecodeI32Error where
  cut e x h1 h2 := by
    cases e <;> first
      | (cases h1; done)
      | (cases h2; done)
      | (rename_i e; exact CutText.cut e x h1 h2)
      | (rename_i e; exact CutText.cons _ e x h1 h2)
      | (refine CutText.here _ ?_; simp [cutTexts]; done)

instance : CutText DecodeI64Error where
  cut e x h1 h2 := by
    cases e <;> first
      | (cases h1; done)
      | (cases h2; done)
      | (rename_i e; exact CutText.cut e x h1 h2)
      | (rename_i e; exact CutText.cons _ e x h1 h2)
      | (refine CutText.here _ ?_; simp [cutTexts]; done)

instance : CutText DecodeS33Error where
  cut e x h1 h2 := by
    cases e <;> first
      | (cases h1; done)
      | (cases h2; done)
      | (rename_i e; exact CutText.cut e x h1 h2)
      | (rename_i e; exact CutText.cons _ e x h1 h2)
      | (refine CutText.here _ ?_; simp [cutTexts]; done)

instance : CutText DecodeLabelIdxError where
  cut e x h1 h2 := by
    cases e <;> first
      | (cases h1; done)
      | (cases h2; done)
      | (rename_i e; exact CutText.cut e x h1 h2)
      | (rename_i e; exact CutText.cons _ e x h1 h2)
      | (refine CutText.here _ ?_; simp [cutTexts]; done)

instance {E : Type} [ErrInfo E] [ErrText E] [CutText E] : CutText (DecodeListError E) where
  cut e x h1 h2 := by
    cases e <;> first
      | (cases h1; done)
      | (cases h2; done)
      | (rename_i e; exact CutText.cut e x h1 h2)
      | (rename_i e; exact CutText.cons _ e x h1 h2)
      | (refine CutText.here _ ?_; simp [cutTexts]; done)

instance : CutText DecodeFuncIdxError where
  cut e x h1 h2 := by
    cases e <;> first
      | (cases h1; done)
      | (cases h2; done)
      | (rename_i e; exact CutText.cut e x h1 h2)
      | (rename_i e; exact CutText.cons _ e x h1 h2)
      | (refine CutText.here _ ?_; simp [cutTexts]; done)

instance : CutText DecodeTableIdxError where
  cut e x h1 h2 := by
    cases e <;> first
      | (cases h1; done)
      | (cases h2; done)
      | (rename_i e; exact CutText.cut e x h1 h2)
      | (rename_i e; exact CutText.cons _ e x h1 h2)
      | (refine CutText.here _ ?_; simp [cutTexts]; done)

instance : CutText DecodeTypeIdxError where
  cut e x h1 h2 := by
    cases e <;> first
      | (cases h1; done)
      | (cases h2; done)
      | (rename_i e; exact CutText.cut e x h1 h2)
      | (rename_i e; exact CutText.cons _ e x h1 h2)
      | (refine CutText.here _ ?_; simp [cutTexts]; done)

instance : CutText DecodeTagIdxError where
  cut e x h1 h2 := by
    cases e <;> first
      | (cases h1; done)
      | (cases h2; done)
      | (rename_i e; exact CutText.cut e x h1 h2)
      | (rename_i e; exact CutText.cons _ e x h1 h2)
      | (refine CutText.here _ ?_; simp [cutTexts]; done)

instance : CutText CatchError where
  cut e x h1 h2 := by
    cases e <;> first
      | (cases h1; done)
      | (cases h2; done)
      | (rename_i e; exact CutText.cut e x h1 h2)
      | (rename_i e; exact CutText.cons _ e x h1 h2)
      | (refine CutText.here _ ?_; simp [cutTexts]; done)

instance : CutText DecodeHeapTypeError where
  cut e x h1 h2 := by
    cases e <;> first
      | (cases h1; done)
      | (cases h2; done)
      | (rename_i e; exact CutText.cut e x h1 h2)
      | (rename_i e; exact CutText.cons _ e x h1 h2)
      | (refine CutText.here _ ?_; simp [cutTexts]; done)

instance : CutText ControlError where
  cut e x h1 h2 := by
    cases e <;> first
      | (cases h1; done)
      | (cases h2; done)
      | (rename_i e; exact CutText.cut e x h1 h2)
      | (rename_i e; exact CutText.cons _ e x h1 h2)
      | (refine CutText.here _ ?_; simp [cutTexts]; done)

instance : CutText ReferenceError where
  cut e x h1 h2 := by
    cases e <;> first
      | (cases h1; done)
      | (cases h2; done)
      | (rename_i e; exact CutText.cut e x h1 h2)
      | (rename_i e; exact CutText.cons _ e x h1 h2)
      | (refine CutText.here _ ?_; simp [cutTexts]; done)

instance : CutText DecodeDataIdxError where
  cut e x h1 h2 := by
    cases e <;> first
      | (cases h1; done)
      | (cases h2; done)
      | (rename_i e; exact CutText.cut e x h1 h2)
      | (rename_i e; exact CutText.cons _ e x h1 h2)
      | (refine CutText.here _ ?_; simp [cutTexts]; done)

instance : CutText DecodeElemIdxError where
  cut e x h1 h2 := by
    cases e <;> first
      | (cases h1; done)
      | (cases h2; done)
      | (rename_i e; exact CutText.cut e x h1 h2)
      | (rename_i e; exact CutText.cons _ e x h1 h2)
      | (refine CutText.here _ ?_; simp [cutTexts]; done)

instance : CutText AggregateError where
  cut e x h1 h2 := by
    cases e <;> first
      | (cases h1; done)
      | (cases h2; done)
      | (rename_i e; exact CutText.cut e x h1 h2)
      | (rename_i e; exact CutText.cons _ e x h1 h2)
      | (refine CutText.here _ ?_; simp [cutTexts]; done)

instance : CutText InvalidAbsHeapTypeMarkerError where
  cut e x h1 h2 := by
    cases e <;> first
      | (cases h1; done)
      | (cases h2; done)
      | (rename_i e; exact CutText.cut e x h1 h2)
      | (rename_i e; exact CutText.cons _ e x h1 h2)
      | (refine CutText.here _ ?_; simp [cutTexts]; done)

instance : CutText DecodeAbsHeapTypeError where
  cut e x h1 h2 := by
    cases e <;> first
      | (cases h1; done)
      | (cases h2; done)
      | (rename_i e; exact CutText.cut e x h1 h2)
      | (rename_i e; exact CutText.cons _ e x h1 h2)
      | (refine CutText.here _ ?_; simp [cutTexts]; done)

instance : CutText DecodeRefTypeError where
  cut e x h1 h2 := by
    cases e <;> first
      | (cases h1; done)
      | (cases h2; done)
      | (rename_i e; exact CutText.cut e x h1 h2)
      | (rename_i e; exact CutText.cons _ e x h1 h2)
      | (refine CutText.here _ ?_; simp [cutTexts]; done)

instance : CutText DecodeValTypeError where
  cut e x h1 h2 := by
    cases e <;> first
      | (cases h1; done)
      | (cases h2; done)
      | (rename_i e; exact CutText.cut e x h1 h2)
      | (rename_i e; exact CutText.cons _ e x h1 h2)
      | (refine CutText.here _ ?_; simp [cutTexts]; done)

instance : CutText ParametricError where
  cut e x h1 h2 := by
    cases e <;> first
      | (cases h1; done)
      | (cases h2; done)
      | (rename_i e; exact CutText.cut e x h1 h2)
      | (rename_i e; exact CutText.cons _ e x h1 h2)
      | (refine CutText.here _ ?_; simp [cutTexts]; done)

instance : CutText DecodeLocalIdxError where
  cut e x h1 h2 := by
    cases e <;> first
      | (cases h1; done)
      | (cases h2; done)
      | (rename_i e; exact CutText.cut e x h1 h2)
      | (rename_i e; exact CutText.cons _ e x h1 h2)
      | (refine CutText.here _ ?_; simp [cutTexts]; done)

instance : CutText DecodeGlobalIdxError where
  cut e x h1 h2 := by
    cases e <;> first
      | (cases h1; done)
      | (cases h2; done)
      | (rename_i e; exact CutText.cut e x h1 h2)
      | (rename_i e; exact CutText.cons _ e x h1 h2)
      | (refine CutText.here _ ?_; simp [cutTexts]; done)

instance : CutText VariableError where
  cut e x h1 h2 := by
    cases e <;> first
      | (cases h1; done)
      | (cases h2; done)
      | (rename_i e; exact CutText.cut e x h1 h2)
      | (rename_i e; exact CutText.cons _ e x h1 h2)
      | (refine CutText.here _ ?_; simp [cutTexts]; done)

instance : CutText TableError where
  cut e x h1 h2 := by
    cases e <;> first
      | (cases h1; done)
      | (cases h2; done)
      | (rename_i e; exact CutText.cut e x h1 h2)
      | (rename_i e; exact CutText.cons _ e x h1 h2)
      | (refine CutText.here _ ?_; simp [cutTexts]; done)

instance : CutText DecodeMemIdxError where
  cut e x h1 h2 := by
    cases e <;> first
      | (cases h1; done)
      | (cases h2; done)
      | (rename_i e; exact CutText.cut e x h1 h2)
      | (rename_i e; exact CutText.cons _ e x h1 h2)
      | (refine CutText.here _ ?_; simp [cutTexts]; done)

instance : CutText MemargError where
  cut e x h1 h2 := by
    cases e <;> first
      | (cases h1; done)
      | (cases h2; done)
      | (rename_i e; exact CutText.cut e x h1 h2)
      | (rename_i e; exact CutText.cons _ e x h1 h2)
      | (refine CutText.here _ ?_; simp [cutTexts]; done)

instance : CutText MemoryError where
  cut e x h1 h2 := by
    cases e <;> first
      | (cases h1; done)
      | (cases h2; done)
      | (rename_i e; exact CutText.cut e x h1 h2)
      | (rename_i e; exact CutText.cons _ e x h1 h2)
      | (refine CutText.here _ ?_; simp [cutTexts]; done)

instance : CutText DecodeFloat32Error where
  cut e x h1 h2 := by
    cases e <;> first
      | (cases h1; done)
      | (cases h2; done)
      | (rename_i e; exact CutText.cut e x h1 h2)
      | (rename_i e; exact CutText.cons _ e x h1 h2)
      | (refine CutText.here _ ?_; simp [cutTexts]; done)

instance : CutText DecodeFloat64Error where
  cut e x h1 h2 := by
    cases e <;> first
      | (cases h1; done)
      | (cases h2; done)
      | (rename_i e; exact CutText.cut e x h1 h2)
      | (rename_i e; exact CutText.cons _ e x h1 h2)
      | (refine CutText.here _ ?_; simp [cutTexts]; done)

instance : CutText NumericError where
  cut e x h1 h2 := by
    cases e <;> first
      | (cases h1; done)
      | (cases h2; done)
      | (rename_i e; exact CutText.cut e x h1 h2)
      | (rename_i e; exact CutText.cons _ e x h1 h2)
      | (refine CutText.here _ ?_; simp [cutTexts]; done)

instance : CutText LaneIdxError where
  cut e x h1 h2 := by
    cases e <;> first
      | (cases h1; done)
      | (cases h2; done)
      | (rename_i e; exact CutText.cut e x h1 h2)
      | (rename_i e; exact CutText.cons _ e x h1 h2)
      | (refine CutText.here _ ?_; simp [cutTexts]; done)

instance : CutText VectorError where
  cut e x h1 h2 := by
    cases e <;> first
      | (cases h1; done)
      | (cases h2; done)
      | (rename_i e; exact CutText.cut e x h1 h2)
      | (rename_i e; exact CutText.cons _ e x h1 h2)
      | (refine CutText.here _ ?_; simp [cutTexts]; done)

instance : CutText ParseError where
  cut e x h1 h2 := by
    cases e <;> first
      | (cases h1; done)
      | (cases h2; done)
      | (rename_i e; exact CutText.cut e x h1 h2)
      | (rename_i e; exact CutText.cons _ e x h1 h2)
      | (refine CutText.here _ ?_; simp [cutTexts]; done)

instance : CutText ParseExpressionError where
  cut e x h1 h2 := by
    cases e <;> first
      | (cases h1; done)
      | (cases h2; done)
      | (rename_i e; exact CutText.cut e x h1 h2)
      | (rename_i e; exact CutText.cons _ e x h1 h2)
      | (refine CutText.here _ ?_; simp [cutTexts]; done)

instance : CutText DecodeByteVectorError where
  cut e x h1 h2 := by
    cases e <;> first
      | (cases h1; done)
      | (cases h2; done)
      | (rename_i e; exact CutText.cut e x h1 h2)
      | (rename_i e; exact CutText.cons _ e x h1 h2)
      | (refine CutText.here _ ?_; simp [cutTexts]; done)

instance : CutText DecodeNameError where
  cut e x h1 h2 := by
    cases e <;> first
      | (cases h1; done)
      | (cases h2; done)
      | (rename_i e; exact CutText.cut e x h1 h2)
      | (rename_i e; exact CutText.cons _ e x h1 h2)
      | (refine CutText.here _ ?_; simp [cutTexts]; done)

instance : CutText DecodeStorageTypeError where
  cut e x h1 h2 := by
    cases e <;> first
      | (cases h1; done)
      | (cases h2; done)
      | (rename_i e; exact CutText.cut e x h1 h2)
      | (rename_i e; exact CutText.cons _ e x h1 h2)
      | (refine CutText.here _ ?_; simp [cutTexts]; done)

instance : CutText InvalidMutabilityByteError where
  cut e x h1 h2 := by
    cases e <;> first
      | (cases h1; done)
      | (cases h2; done)
      | (rename_i e; exact CutText.cut e x h1 h2)
      | (rename_i e; exact CutText.cons _ e x h1 h2)
      | (refine CutText.here _ ?_; simp [cutTexts]; done)

instance : CutText DecodeFieldTypeError where
  cut e x h1 h2 := by
    cases e <;> first
      | (cases h1; done)
      | (cases h2; done)
      | (rename_i e; exact CutText.cut e x h1 h2)
      | (rename_i e; exact CutText.cons _ e x h1 h2)
      | (refine CutText.here _ ?_; simp [cutTexts]; done)

instance : CutText DecodeResultTypeError where
  cut e x h1 h2 := by
    cases e <;> first
      | (cases h1; done)
      | (cases h2; done)
      | (rename_i e; exact CutText.cut e x h1 h2)
      | (rename_i e; exact CutText.cons _ e x h1 h2)
      | (refine CutText.here _ ?_; simp [cutTexts]; done)

instance : CutText DecodeCompTypeError where
  cut e x h1 h2 := by
    cases e <;> first
      | (cases h1; done)
      | (cases h2; done)
      | (rename_i e; exact CutText.cut e x h1 h2)
      | (rename_i e; exact CutText.cons _ e x h1 h2)
      | (refine CutText.here _ ?_; simp [cutTexts]; done)

instance : CutText InvalidPackTypeMarkerError where
  cut e x h1 h2 := by
    cases e <;> first
      | (cases h1; done)
      | (cases h2; done)
      | (rename_i e; exact CutText.cut e x h1 h2)
      | (rename_i e; exact CutText.cons _ e x h1 h2)
      | (refine CutText.here _ ?_; simp [cutTexts]; done)

instance : CutText ParseLimitsError where
  cut e x h1 h2 := by
    cases e <;> first
      | (cases h1; done)
      | (cases h2; done)
      | (rename_i e; exact CutText.cut e x h1 h2)
      | (rename_i e; exact CutText.cons _ e x h1 h2)
      | (refine CutText.here _ ?_; simp [cutTexts]; done)

instance : CutText DecodeTableTypeError where
  cut e x h1 h2 := by
    cases e <;> first
      | (cases h1; done)
      | (cases h2; done)
      | (rename_i e; exact CutText.cut e x h1 h2)
      | (rename_i e; exact CutText.cons _ e x h1 h2)
      | (refine CutText.here _ ?_; simp [cutTexts]; done)

instance : CutText DecodeMemoryTypeError where
  cut e x h1 h2 := by
    cases e <;> first
      | (cases h1; done)
      | (cases h2; done)
      | (rename_i e; exact CutText.cut e x h1 h2)
      | (rename_i e; exact CutText.cons _ e x h1 h2)
      | (refine CutText.here _ ?_; simp [cutTexts]; done)

instance : CutText DecodeGlobalTypeError where
  cut e x h1 h2 := by
    cases e <;> first
      | (cases h1; done)
      | (cases h2; done)
      | (rename_i e; exact CutText.cut e x h1 h2)
      | (rename_i e; exact CutText.cons _ e x h1 h2)
      | (refine CutText.here _ ?_; simp [cutTexts]; done)

instance : CutText DecodeTagTypeError where
  cut e x h1 h2 := by
    cases e <;> first
      | (cases h1; done)
      | (cases h2; done)
      | (rename_i e; exact CutText.cut e x h1 h2)
      | (rename_i e; exact CutText.cons _ e x h1 h2)
      | (refine CutText.here _ ?_; simp [cutTexts]; done)

instance : CutText DecodeExternTypeError where
  cut e x h1 h2 := by
    cases e <;> first
      | (cases h1; done)
      | (cases h2; done)
      | (rename_i e; exact CutText.cut e x h1 h2)
      | (rename_i e; exact CutText.cons _ e x h1 h2)
      | (refine CutText.here _ ?_; simp [cutTexts]; done)

instance : CutText DecodeSubTypeError where
  cut e x h1 h2 := by
    cases e <;> first
      | (cases h1; done)
      | (cases h2; done)
      | (rename_i e; exact CutText.cut e x h1 h2)
      | (rename_i e; exact CutText.cons _ e x h1 h2)
      | (refine CutText.here _ ?_; simp [cutTexts]; done)

instance : CutText DecodeRecTypeError where
  cut e x h1 h2 := by
    cases e <;> first
      | (cases h1; done)
      | (cases h2; done)
      | (rename_i e; exact CutText.cut e x h1 h2)
      | (rename_i e; exact CutText.cons _ e x h1 h2)
      | (refine CutText.here _ ?_; simp [cutTexts]; done)

instance : CutText DecodeCodeLocalsError where
  cut e x h1 h2 := by
    cases e <;> first
      | (cases h1; done)
      | (cases h2; done)
      | (rename_i e; exact CutText.cut e x h1 h2)
      | (rename_i e; exact CutText.cons _ e x h1 h2)
      | (refine CutText.here _ ?_; simp [cutTexts]; done)

instance : CutText DecodeCodeError where
  cut e x h1 h2 := by
    cases e <;> first
      | (cases h1; done)
      | (cases h2; done)
      | (rename_i e; exact CutText.cut e x h1 h2)
      | (rename_i e; exact CutText.cons _ e x h1 h2)
      | (refine CutText.here _ ?_; simp [cutTexts]; done)

instance : CutText DecodeCodeSectionError where
  cut e x h1 h2 := by
    cases e <;> first
      | (cases h1; done)
      | (cases h2; done)
      | (rename_i e; exact CutText.cut e x h1 h2)
      | (rename_i e; exact CutText.cons _ e x h1 h2)
      | (refine CutText.here _ ?_; simp [cutTexts]; done)

instance : CutText DecodeCustomSectionError where
  cut e x h1 h2 := by
    cases e <;> first
      | (cases h1; done)
      | (cases h2; done)
      | (rename_i e; exact CutText.cut e x h1 h2)
      | (rename_i e; exact CutText.cons _ e x h1 h2)
      | (refine CutText.here _ ?_; simp [cutTexts]; done)

instance : CutText DecodeDataSegmentError where
  cut e x h1 h2 := by
    cases e <;> first
      | (cases h1; done)
      | (cases h2; done)
      | (rename_i e; exact CutText.cut e x h1 h2)
      | (rename_i e; exact CutText.cons _ e x h1 h2)
      | (refine CutText.here _ ?_; simp [cutTexts]; done)

instance : CutText DecodeDataSectionError where
  cut e x h1 h2 := by
    cases e <;> first
      | (cases h1; done)
      | (cases h2; done)
      | (rename_i e; exact CutText.cut e x h1 h2)
      | (rename_i e; exact CutText.cons _ e x h1 h2)
      | (refine CutText.here _ ?_; simp [cutTexts]; done)

instance : CutText DecodeDataCountSectionError where
  cut e x h1 h2 := by
    cases e <;> first
      | (cases h1; done)
      | (cases h2; done)
      | (rename_i e; exact CutText.cut e x h1 h2)
      | (rename_i e; exact CutText.cons _ e x h1 h2)
      | (refine CutText.here _ ?_; simp [cutTexts]; done)

instance : CutText DecodeElementKindError where
  cut e x h1 h2 := by
    cases e <;> first
      | (cases h1; done)
      | (cases h2; done)
      | (rename_i e; exact CutText.cut e x h1 h2)
      | (rename_i e; exact CutText.cons _ e x h1 h2)
      | (refine CutText.here _ ?_; simp [cutTexts]; done)

instance : CutText DecodeElementError where
  cut e x h1 h2 := by
    cases e <;> first
      | (cases h1; done)
      | (cases h2; done)
      | (rename_i e; exact CutText.cut e x h1 h2)
      | (rename_i e; exact CutText.cons _ e x h1 h2)
      | (refine CutText.here _ ?_; simp [cutTexts]; done)

instance : CutText DecodeElementSectionError where
  cut e x h1 h2 := by
    cases e <;> first
      | (cases h1; done)
      | (cases h2; done)
      | (rename_i e; exact CutText.cut e x h1 h2)
      | (rename_i e; exact CutText.cons _ e x h1 h2)
      | (refine CutText.here _ ?_; simp [cutTexts]; done)

instance : CutText InvalidExportDescMarkerByte where
  cut e x h1 h2 := by
    cases e <;> first
      | (cases h1; done)
      | (cases h2; done)
      | (rename_i e; exact CutText.cut e x h1 h2)
      | (rename_i e; exact CutText.cons _ e x h1 h2)
      | (refine CutText.here _ ?_; simp [cutTexts]; done)

instance : CutText DecodeExportError where
  cut e x h1 h2 := by
    cases e <;> first
      | (cases h1; done)
      | (cases h2; done)
      | (rename_i e; exact CutText.cut e x h1 h2)
      | (rename_i e; exact CutText.cons _ e x h1 h2)
      | (refine CutText.here _ ?_; simp [cutTexts]; done)

instance : CutText DecodeExportSectionError where
  cut e x h1 h2 := by
    cases e <;> first
      | (cases h1; done)
      | (cases h2; done)
      | (rename_i e; exact CutText.cut e x h1 h2)
      | (rename_i e; exact CutText.cons _ e x h1 h2)
      | (refine CutText.here _ ?_; simp [cutTexts]; done)

instance : CutText DecodeFunctionSectionError where
  cut e x h1 h2 := by
    cases e <;> first
      | (cases h1; done)
      | (cases h2; done)
      | (rename_i e; exact CutText.cut e x h1 h2)
      | (rename_i e; exact CutText.cons _ e x h1 h2)
      | (refine CutText.here _ ?_; simp [cutTexts]; done)

instance : CutText DecodeGlobalError where
  cut e x h1 h2 := by
    cases e <;> first
      | (cases h1; done)
      | (cases h2; done)
      | (rename_i e; exact CutText.cut e x h1 h2)
      | (rename_i e; exact CutText.cons _ e x h1 h2)
      | (refine CutText.here _ ?_; simp [cutTexts]; done)

instance : CutText DecodeGlobalSectionError where
  cut e x h1 h2 := by
    cases e <;> first
      | (cases h1; done)
      | (cases h2; done)
      | (rename_i e; exact CutText.cut e x h1 h2)
      | (rename_i e; exact CutText.cons _ e x h1 h2)
      | (refine CutText.here _ ?_; simp [cutTexts]; done)

instance : CutText DecodeImportError where
  cut e x h1 h2 := by
    cases e <;> first
      | (cases h1; done)
      | (cases h2; done)
      | (rename_i e; exact CutText.cut e x h1 h2)
      | (rename_i e; exact CutText.cons _ e x h1 h2)
      | (refine CutText.here _ ?_; simp [cutTexts]; done)

instance : CutText DecodeImportSectionError where
  cut e x h1 h2 := by
    cases e <;> first
      | (cases h1; done)
      | (cases h2; done)
      | (rename_i e; exact CutText.cut e x h1 h2)
      | (rename_i e; exact CutText.cons _ e x h1 h2)
      | (refine CutText.here _ ?_; simp [cutTexts]; done)

instance : CutText DecodeMemorySectionError where
  cut e x h1 h2 := by
    cases e <;> first
      | (cases h1; done)
      | (cases h2; done)
      | (rename_i e; exact CutText.cut e x h1 h2)
      | (rename_i e; exact CutText.cons _ e x h1 h2)
      | (refine CutText.here _ ?_; simp [cutTexts]; done)

instance : CutText DecodeStartSectionError where
  cut e x h1 h2 := by
    cases e <;> first
      | (cases h1; done)
      | (cases h2; done)
      | (rename_i e; exact CutText.cut e x h1 h2)
      | (rename_i e; exact CutText.cons _ e x h1 h2)
      | (refine CutText.here _ ?_; simp [cutTexts]; done)

instance : CutText DecodeTableError where
  cut e x h1 h2 := by
    cases e <;> first
      | (cases h1; done)
      | (cases h2; done)
      | (rename_i e; exact CutText.cut e x h1 h2)
      | (rename_i e; exact CutText.cons _ e x h1 h2)
      | (refine CutText.here _ ?_; simp [cutTexts]; done)

instance : CutText DecodeTableSectionError where
  cut e x h1 h2 := by
    cases e <;> first
      | (cases h1; done)
      | (cases h2; done)
      | (rename_i e; exact CutText.cut e x h1 h2)
      | (rename_i e; exact CutText.cons _ e x h1 h2)
      | (refine CutText.here _ ?_; simp [cutTexts]; done)

instance : CutText DecodeTagSectionError where
  cut e x h1 h2 := by
    cases e <;> first
      | (cases h1; done)
      | (cases h2; done)
      | (rename_i e; exact CutText.cut e x h1 h2)
      | (rename_i e; exact CutText.cons _ e x h1 h2)
      | (refine CutText.here _ ?_; simp [cutTexts]; done)

instance : CutText DecodeTypeSectionError where
  cut e x h1 h2 := by
    cases e <;> first
      | (cases h1; done)
      | (cases h2; done)
      | (rename_i e; exact CutText.cut e x h1 h2)
      | (rename_i e; exact CutText.cons _ e x h1 h2)
      | (refine CutText.here _ ?_; simp [cutTexts]; done)

instance : CutText InvalidSectionIdError where
  cut e x h1 h2 := by
    cases e <;> first
      | (cases h1; done)
      | (cases h2; done)
      | (rename_i e; exact CutText.cut e x h1 h2)
      | (rename_i e; exact CutText.cons _ e x h1 h2)
      | (refine CutText.here _ ?_; simp [cutTexts]; done)

instance : CutText ParsePreambleError where
  cut e x h1 h2 := by
    cases e <;> first
      | (cases h1; done)
      | (cases h2; done)
      | (rename_i e; exact CutText.cut e x h1 h2)
      | (rename_i e; exact CutText.cons _ e x h1 h2)
      | (refine CutText.here _ ?_; simp [cutTexts]; done)

instance : CutText DecodeSectionHeaderError where
  cut e x h1 h2 := by
    cases e <;> first
      | (cases h1; done)
      | (cases h2; done)
      | (rename_i e; exact CutText.cut e x h1 h2)
      | (rename_i e; exact CutText.cons _ e x h1 h2)
      | (refine CutText.here _ ?_; simp [cutTexts]; done)

instance : CutText DecodeModuleError where
  cut e x h1 h2 := by
    cases e <;> first
      | (cases h1; done)
      | (cases h2; done)
      | (rename_i e; exact CutText.cut e x h1 h2)
      | (rename_i e; exact CutText.cons _ e x h1 h2)
      | (refine CutText.here _ ?_; simp [cutTexts]; done)

/-! ### Swallowed I/O errors -/

class MurkyText (ε : Type) [ErrInfo ε] [ErrText ε] : Prop where
  murky : ∀ e : ε, ErrInfo.murky e = true → Cut (fun io => ErrText.chain io e)

instance : MurkyText IoError where
  murky _ h := nomatch h

instance : MurkyText FromUtf8Error where
  murky _ h := nomatch h

theorem MurkyText.cons {ε : Type} [ErrInfo ε] [ErrText ε] [MurkyText ε] (s : String) (e : ε)
    (h : ErrInfo.murky e = true) : Cut (fun io => s :: ErrText.chain io e) := by
  obtain ⟨pre, t, ht, h⟩ := MurkyText.murky e h
  exact ⟨s :: pre, t, ht, fun io => congrArg (s :: ·) (h io)⟩

instance : MurkyText DecodeU32Error where
  murky e h := by
    cases e <;> first
      | (cases h; done)
      | (rename_i e; exact MurkyText.murky e h)
      | (rename_i e; exact MurkyText.cons _ e h)
      | (refine CutText.here _ ?_; simp [cutTexts]; done)

instance : MurkyText DecodeU64Error where
  murky e h := by
    cases e <;> first
      | (cases h; done)
      | (rename_i e; exact MurkyText.murky e h)
      | (rename_i e; exact MurkyText.cons _ e h)
      | (refine CutText.here _ ?_; simp [cutTexts]; done)

instance : MurkyText DecodeI32Error where
  murky e h := by
    cases e <;> first
      | (cases h; done)
      | (rename_i e; exact MurkyText.murky e h)
      | (rename_i e; exact MurkyText.cons _ e h)
      | (refine CutText.here _ ?_; simp [cutTexts]; done)

instance : MurkyText DecodeI64Error where
  murky e h := by
    cases e <;> first
      | (cases h; done)
      | (rename_i e; exact MurkyText.murky e h)
      | (rename_i e; exact MurkyText.cons _ e h)
      | (refine CutText.here _ ?_; simp [cutTexts]; done)

instance : MurkyText DecodeS33Error where
  murky e h := by
    cases e <;> first
      | (cases h; done)
      | (rename_i e; exact MurkyText.murky e h)
      | (rename_i e; exact MurkyText.cons _ e h)
      | (refine CutText.here _ ?_; simp [cutTexts]; done)

instance : MurkyText DecodeLabelIdxError where
  murky e h := by
    cases e <;> first
      | (cases h; done)
      | (rename_i e; exact MurkyText.murky e h)
      | (rename_i e; exact MurkyText.cons _ e h)
      | (refine CutText.here _ ?_; simp [cutTexts]; done)

instance {E : Type} [ErrInfo E] [ErrText E] [MurkyText E] : MurkyText (DecodeListError E) where
  murky e h := by
    cases e <;> first
      | (cases h; done)
      | (rename_i e; exact MurkyText.murky e h)
      | (rename_i e; exact MurkyText.cons _ e h)
      | (refine CutText.here _ ?_; simp [cutTexts]; done)

instance : MurkyText DecodeFuncIdxError where
  murky e h := by
    cases e <;> first
      | (cases h; done)
      | (rename_i e; exact MurkyText.murky e h)
      | (rename_i e; exact MurkyText.cons _ e h)
      | (refine CutText.here _ ?_; simp [cutTexts]; done)

instance : MurkyText DecodeTableIdxError where
  murky e h := by
    cases e <;> first
      | (cases h; done)
      | (rename_i e; exact MurkyText.murky e h)
      | (rename_i e; exact MurkyText.cons _ e h)
      | (refine CutText.here _ ?_; simp [cutTexts]; done)

instance : MurkyText DecodeTypeIdxError where
  murky e h := by
    cases e <;> first
      | (cases h; done)
      | (rename_i e; exact MurkyText.murky e h)
      | (rename_i e; exact MurkyText.cons _ e h)
      | (refine CutText.here _ ?_; simp [cutTexts]; done)

instance : MurkyText DecodeTagIdxError where
  murky e h := by
    cases e <;> first
      | (cases h; done)
      | (rename_i e; exact MurkyText.murky e h)
      | (rename_i e; exact MurkyText.cons _ e h)
      | (refine CutText.here _ ?_; simp [cutTexts]; done)

instance : MurkyText CatchError where
  murky e h := by
    cases e <;> first
      | (cases h; done)
      | (rename_i e; exact MurkyText.murky e h)
      | (rename_i e; exact MurkyText.cons _ e h)
      | (refine CutText.here _ ?_; simp [cutTexts]; done)

instance : MurkyText DecodeHeapTypeError where
  murky e h := by
    cases e <;> first
      | (cases h; done)
      | (rename_i e; exact MurkyText.murky e h)
      | (rename_i e; exact MurkyText.cons _ e h)
      | (refine CutText.here _ ?_; simp [cutTexts]; done)

instance : MurkyText ControlError where
  murky e h := by
    cases e <;> first
      | (cases h; done)
      | (rename_i e; exact MurkyText.murky e h)
      | (rename_i e; exact MurkyText.cons _ e h)
      | (refine CutText.here _ ?_; simp [cutTexts]; done)

instance : MurkyText ReferenceError where
  murky e h := by
    cases e <;> first
      | (cases h; done)
      | (rename_i e; exact MurkyText.murky e h)
      | (rename_i e; exact MurkyText.cons _ e h)
      | (refine CutText.here _ ?_; simp [cutTexts]; done)

instance : MurkyText DecodeDataIdxError where
  murky e h := by
    cases e <;> first
      | (cases h; done)
      | (rename_i e; exact MurkyText.murky e h)
      | (rename_i e; exact MurkyText.cons _ e h)
      | (refine CutText.here _ ?_; simp [cutTexts]; done)

instance : MurkyText DecodeElemIdxError where
  murky e h := by
    cases e <;> first
      | (cases h; done)
      | (rename_i e; exact MurkyText.murky e h)
      | (rename_i e; exact MurkyText.cons _ e h)
      | (refine CutText.here _ ?_; simp [cutTexts]; done)

instance : MurkyText AggregateError where
  murky e h := by
    cases e <;> first
      | (cases h; done)
      | (rename_i e; exact MurkyText.murky e h)
      | (rename_i e; exact MurkyText.cons _ e h)
      | (refine CutText.here _ ?_; simp [cutTexts]; done)

instance : MurkyText InvalidAbsHeapTypeMarkerError where
  murky e h := by
    cases e <;> first
      | (cases h; done)
      | (rename_i e; exact MurkyText.murky e h)
      | (rename_i e; exact MurkyText.cons _ e h)
      | (refine CutText.here _ ?_; simp [cutTexts]; done)

instance : MurkyText DecodeAbsHeapTypeError where
  murky e h := by
    cases e <;> first
      | (cases h; done)
      | (rename_i e; exact MurkyText.murky e h)
      | (rename_i e; exact MurkyText.cons _ e h)
      | (refine CutText.here _ ?_; simp [cutTexts]; done)

instance : MurkyText DecodeRefTypeError where
  murky e h := by
    cases e <;> first
      | (cases h; done)
      | (rename_i e; exact MurkyText.murky e h)
      | (rename_i e; exact MurkyText.cons _ e h)
      | (refine CutText.here _ ?_; simp [cutTexts]; done)

instance : MurkyText DecodeValTypeError where
  murky e h := by
    cases e <;> first
      | (cases h; done)
      | (rename_i e; exact MurkyText.murky e h)
      | (rename_i e; exact MurkyText.cons _ e h)
      | (refine CutText.here _ ?_; simp [cutTexts]; done)

instance : MurkyText ParametricError where
  murky e h := by
    cases e <;> first
      | (cases h; done)
      | (rename_i e; exact MurkyText.murky e h)
      | (rename_i e; exact MurkyText.cons _ e h)
      | (refine CutText.here _ ?_; simp [cutTexts]; done)

instance : MurkyText DecodeLocalIdxError where
  murky e h := by
    cases e <;> first
      | (cases h; done)
      | (rename_i e; exact MurkyText.murky e h)
      | (rename_i e; exact MurkyText.cons _ e h)
      | (refine CutText.here _ ?_; simp [cutTexts]; done)

instance : MurkyText DecodeGlobalIdxError where
  murky e h := by
    cases e <;> first
      | (cases h; done)
      | (rename_i e; exact MurkyText.murky e h)
      | (rename_i e; exact MurkyText.cons _ e h)
      | (refine CutText.here _ ?_; simp [cutTexts]; done)

instance : MurkyText VariableError where
  murky e h := by
    cases e <;> first
      | (cases h; done)
      | (rename_i e; exact MurkyText.murky e h)
      | (rename_i e; exact MurkyText.cons _ e h)
      | (refine CutText.here _ ?_; simp [cutTexts]; done)

instance : MurkyText TableError where
  murky e h := by
    cases e <;> first
      | (cases h; done)
      | (rename_i e; exact MurkyText.murky e h)
      | (rename_i e; exact MurkyText.cons _ e h)
      | (refine CutText.here _ ?_; simp [cutTexts]; done)

instance : MurkyText DecodeMemIdxError where
  murky e h := by
    cases e <;> first
      | (cases h; done)
      | (rename_i e; exact MurkyText.murky e h)
      | (rename_i e; exact MurkyText.cons _ e h)
      | (refine CutText.here _ ?_; simp [cutTexts]; done)

instance : MurkyText MemargError where
  murky e h := by
    cases e <;> first
      | (cases h; done)
      | (rename_i e; exact MurkyText.murky e h)
      | (rename_i e; exact MurkyText.cons _ e h)
      | (refine CutText.here _ ?_; simp [cutTexts]; done)

instance : MurkyText MemoryError where
  murky e h := by
    cases e <;> first
      | (cases h; done)
      | (rename_i e; exact MurkyText.murky e h)
      | (rename_i e; exact MurkyText.cons _ e h)
      | (refine CutText.here _ ?_; simp [cutTexts]; done)

instance : MurkyText DecodeFloat32Error where
  murky e h := by
    cases e <;> first
      | (cases h; done)
      | (rename_i e; exact MurkyText.murky e h)
      | (rename_i e; exact MurkyText.cons _ e h)
      | (refine CutText.here _ ?_; simp [cutTexts]; done)

instance : MurkyText DecodeFloat64Error where
  murky e h := by
    cases e <;> first
      | (cases h; done)
      | (rename_i e; exact MurkyText.murky e h)
      | (rename_i e; exact MurkyText.cons _ e h)
      | (refine CutText.here _ ?_; simp [cutTexts]; done)

instance : MurkyText NumericError where
  murky e h := by
    cases e <;> first
      | (cases h; done)
      | (rename_i e; exact MurkyText.murky e h)
      | (rename_i e; exact MurkyText.cons _ e h)
      | (refine CutText.here _ ?_; simp [cutTexts]; done)

instance : MurkyText LaneIdxError where
  murky e h := by
    cases e <;> first
      | (cases h; done)
      | (rename_i e; exact MurkyText.murky e h)
      | (rename_i e; exact MurkyText.cons _ e h)
      | (refine CutText.here _ ?_; simp [cutTexts]; done)

instance : MurkyText VectorError where
  murky e h := by
    cases e <;> first
      | (cases h; done)
      | (rename_i e; exact MurkyText.murky e h)
      | (rename_i e; exact MurkyText.cons _ e h)
      | (refine CutText.here _ ?_; simp [cutTexts]; done)

instance : MurkyText ParseError where
  murky e h := by
    cases e <;> first
      | (cases h; done)
      | (rename_i e; exact MurkyText.murky e h)
      | (rename_i e; exact MurkyText.cons _ e h)
      | (refine CutText.here _ ?_; simp [cutTexts]; done)

instance : MurkyText ParseExpressionError where
  murky e h := by
    cases e <;> first
      | (cases h; done)
      | (rename_i e; exact MurkyText.murky e h)
      | (rename_i e; exact MurkyText.cons _ e h)
      | (refine CutText.here _ ?_; simp [cutTexts]; done)

instance : MurkyText DecodeByteVectorError where
  murky e h := by
    cases e <;> first
      | (cases h; done)
      | (rename_i e; exact MurkyText.murky e h)
      | (rename_i e; exact MurkyText.cons _ e h)
      | (refine CutText.here _ ?_; simp [cutTexts]; done)

instance : MurkyText DecodeNameError where
  murky e h := by
    cases e <;> first
      | (cases h; done)
      | (rename_i e; exact MurkyText.murky e h)
      | (rename_i e; exact MurkyText.cons _ e h)
      | (refine CutText.here _ ?_; simp [cutTexts]; done)

instance : MurkyText DecodeStorageTypeError where
  murky e h := by
    cases e <;> first
      | (cases h; done)
      | (rename_i e; exact MurkyText.murky e h)
      | (rename_i e; exact MurkyText.cons _ e h)
      | (refine CutText.here _ ?_; simp [cutTexts]; done)

instance : MurkyText InvalidMutabilityByteError where
  murky e h := by
    cases e <;> first
      | (cases h; done)
      | (rename_i e; exact MurkyText.murky e h)
      | (rename_i e; exact MurkyText.cons _ e h)
      | (refine CutText.here _ ?_; simp [cutTexts]; done)

instance : MurkyText DecodeFieldTypeError where
  murky e h := by
    cases e <;> first
      | (cases h; done)
      | (rename_i e; exact MurkyText.murky e h)
      | (rename_i e; exact MurkyText.cons _ e h)
      | (refine CutText.here _ ?_; simp [cutTexts]; done)

instance : MurkyText DecodeResultTypeError where
  murky e h := by
    cases e <;> first
      | (cases h; done)
      | (rename_i e; exact MurkyText.murky e h)
      | (rename_i e; exact MurkyText.cons _ e h)
      | (refine CutText.here _ ?_; simp [cutTexts]; done)

instance : MurkyText DecodeCompTypeError where
  murky e h := by
    cases e <;> first
      | (cases h; done)
      | (rename_i e; exact MurkyText.murky e h)
      | (rename_i e; exact MurkyText.cons _ e h)
      | (refine CutText.here _ ?_; simp [cutTexts]; done)

instance : MurkyText InvalidPackTypeMarkerError where
  murky e h := by
    cases e <;> first
      | (cases h; done)
      | (rename_i e; exact MurkyText.murky e h)
      | (rename_i e; exact MurkyText.cons _ e h)
      | (refine CutText.here _ ?_; simp [cutTexts]; done)

instance : MurkyText ParseLimitsError where
  murky e h := by
    cases e <;> first
      | (cases h; done)
      | (rename_i e; exact MurkyText.murky e h)
      | (rename_i e; exact MurkyText.cons _ e h)
      | (refine CutText.here _ ?_; simp [cutTexts]; done)

instance : MurkyText DecodeTableTypeError where
  murky e h := by
    cases e <;> first
      | (cases h; done)
      | (rename_i e; exact MurkyText.murky e h)
      | (rename_i e; exact MurkyText.cons _ e h)
      | (refine CutText.here _ ?_; simp [cutTexts]; done)

instance : MurkyText DecodeMemoryTypeError where
  murky e h := by
    cases e <;> first
      | (cases h; done)
      | (rename_i e; exact MurkyText.murky e h)
      | (rename_i e; exact MurkyText.cons _ e h)
      | (refine CutText.here _ ?_; simp [cutTexts]; done)

instance : MurkyText DecodeGlobalTypeError where
  murky e h := by
    cases e <;> first
      | (cases h; done)
      | (rename_i e; exact MurkyText.murky e h)
      | (rename_i e; exact MurkyText.cons _ e h)
      | (refine CutText.here _ ?_; simp [cutTexts]; done)

instance : MurkyText DecodeTagTypeError where
  murky e h := by
    cases e <;> first
      | (cases h; done)
      | (rename_i e; exact MurkyText.murky e h)
      | (rename_i e; exact MurkyText.cons _ e h)
      | (refine CutText.here _ ?_; simp [cutTexts]; done)

instance : MurkyText DecodeExternTypeError where
  murky e h := by
    cases e <;> first
      | (cases h; done)
      | (rename_i e; exact MurkyText.murky e h)
      | (rename_i e; exact MurkyText.cons _ e h)
      | (refine CutText.here _ ?_; simp [cutTexts]; done)

instance : MurkyText DecodeSubTypeError where
  murky e h := by
    cases e <;> first
      | (cases h; done)
      | (rename_i e; exact MurkyText.murky e h)
      | (rename_i e; exact MurkyText.cons _ e h)
      | (refine CutText.here _ ?_; simp [cutTexts]; done)

instance : MurkyText DecodeRecTypeError where
  murky e h := by
    cases e <;> first
      | (cases h; done)
      | (rename_i e; exact MurkyText.murky e h)
      | (rename_i e; exact MurkyText.cons _ e h)
      | (refine CutText.here _ ?_; simp [cutTexts]; done)

instance : MurkyText DecodeCodeLocalsError where
  murky e h := by
    cases e <;> first
      | (cases h; done)
      | (rename_i e; exact MurkyText.murky e h)
      | (rename_i e; exact MurkyText.cons _ e h)
      | (refine CutText.here _ ?_; simp [cutTexts]; done)

instance : MurkyText DecodeCodeError where
  murky e h := by
    cases e <;> first
      | (cases h; done)
      | (rename_i e; exact MurkyText.murky e h)
      | (rename_i e; exact MurkyText.cons _ e h)
      | (refine CutText.here _ ?_; simp [cutTexts]; done)

instance : MurkyText DecodeCodeSectionError where
  murky e h := by
    cases e <;> first
      | (cases h; done)
      | (rename_i e; exact MurkyText.murky e h)
      | (rename_i e; exact MurkyText.cons _ e h)
      | (refine CutText.here _ ?_; simp [cutTexts]; done)

instance : MurkyText DecodeCustomSectionError where
  murky e h := by
    cases e <;> first
      | (cases h; done)
      | (rename_i e; exact MurkyText.murky e h)
      | (rename_i e; exact MurkyText.cons _ e h)
      | (refine CutText.here _ ?_; simp [cutTexts]; done)

instance : MurkyText DecodeDataSegmentError where
  murky e h := by
    cases e <;> first
      | (cases h; done)
      | (rename_i e; exact MurkyText.murky e h)
      | (rename_i e; exact MurkyText.cons _ e h)
      | (refine CutText.here _ ?_; simp [cutTexts]; done)

instance : MurkyText DecodeDataSectionError where
  murky e h := by
    cases e <;> first
      | (cases h; done)
      | (rename_i e; exact MurkyText.murky e h)
      | (rename_i e; exact MurkyText.cons _ e h)
      | (refine CutText.here _ ?_; simp [cutTexts]; done)

instance : MurkyText DecodeDataCountSectionError where
  murky e h := by
    cases e <;> first
      | (cases h; done)
      | (rename_i e; exact MurkyText.murky e h)
      | (rename_i e; exact MurkyText.cons _ e h)
      | (refine CutText.here _ ?_; simp [cutTexts]; done)

instance : MurkyText DecodeElementKindError where
  murky e h := by
    cases e <;> first
      | (cases h; done)
      | (rename_i e; exact MurkyText.murky e h)
      | (rename_i e; exact MurkyText.cons _ e h)
      | (refine CutText.here _ ?_; simp [cutTexts]; done)

instance : MurkyText DecodeElementError where
  murky e h := by
    cases e <;> first
      | (cases h; done)
      | (rename_i e; exact MurkyText.murky e h)
      | (rename_i e; exact MurkyText.cons _ e h)
      | (refine CutText.here _ ?_; simp [cutTexts]; done)

instance : MurkyText DecodeElementSectionError where
  murky e h := by
    cases e <;> first
      | (cases h; done)
      | (rename_i e; exact MurkyText.murky e h)
      | (rename_i e; exact MurkyText.cons _ e h)
      | (refine CutText.here _ ?_; simp [cutTexts]; done)

instance : MurkyText InvalidExportDescMarkerByte where
  murky e h := by
    cases e <;> first
      | (cases h; done)
      | (rename_i e; exact MurkyText.murky e h)
      | (rename_i e; exact MurkyText.cons _ e h)
      | (refine CutText.here _ ?_; simp [cutTexts]; done)

instance : MurkyText DecodeExportError where
  murky e h := by
    cases e <;> first
      | (cases h; done)
      | (rename_i e; exact MurkyText.murky e h)
      | (rename_i e; exact MurkyText.cons _ e h)
      | (refine CutText.here _ ?_; simp [cutTexts]; done)

instance : MurkyText DecodeExportSectionError where
  murky e h := by
    cases e <;> first
      | (cases h; done)
      | (rename_i e; exact MurkyText.murky e h)
      | (rename_i e; exact MurkyText.cons _ e h)
      | (refine CutText.here _ ?_; simp [cutTexts]; done)

instance : MurkyText DecodeFunctionSectionError where
  murky e h := by
    cases e <;> first
      | (cases h; done)
      | (rename_i e; exact MurkyText.murky e h)
      | (rename_i e; exact MurkyText.cons _ e h)
      | (refine CutText.here _ ?_; simp [cutTexts]; done)

instance : MurkyText DecodeGlobalError where
  murky e h := by
    cases e <;> first
      | (cases h; done)
      | (rename_i e; exact MurkyText.murky e h)
      | (rename_i e; exact MurkyText.cons _ e h)
      | (refine CutText.here _ ?_; simp [cutTexts]; done)

instance : MurkyText DecodeGlobalSectionError where
  murky e h := by
    cases e <;> first
      | (cases h; done)
      | (rename_i e; exact MurkyText.murky e h)
      | (rename_i e; exact MurkyText.cons _ e h)
      | (refine CutText.here _ ?_; simp [cutTexts]; done)

instance : MurkyText DecodeImportError where
  murky e h := by
    cases e <;> first
      | (cases h; done)
      | (rename_i e; exact MurkyText.murky e h)
      | (rename_i e; exact MurkyText.cons _ e h)
      | (refine CutText.here _ ?_; simp [cutTexts]; done)

instance : MurkyText DecodeImportSectionError where
  murky e h := by
    cases e <;> first
      | (cases h; done)
      | (rename_i e; exact MurkyText.murky e h)
      | (rename_i e; exact MurkyText.cons _ e h)
      | (refine CutText.here _ ?_; simp [cutTexts]; done)

instance : MurkyText DecodeMemorySectionError where
  murky e h := by
    cases e <;> first
      | (cases h; done)
      | (rename_i e; exact MurkyText.murky e h)
      | (rename_i e; exact MurkyText.cons _ e h)
      | (refine CutText.here _ ?_; simp [cutTexts]; done)

instance : MurkyText DecodeStartSectionError where
  murky e h := by
    cases e <;> first
      | (cases h; done)
      | (rename_i e; exact MurkyText.murky e h)
      | (rename_i e; exact MurkyText.cons _ e h)
      | (refine CutText.here _ ?_; simp [cutTexts]; done)

instance : MurkyText DecodeTableError where
  murky e h := by
    cases e <;> first
      | (cases h; done)
      | (rename_i e; exact MurkyText.murky e h)
      | (rename_i e; exact MurkyText.cons _ e h)
      | (refine CutText.here _ ?_; simp [cutTexts]; done)

instance : MurkyText DecodeTableSectionError where
  murky e h := by
    cases e <;> first
      | (cases h; done)
      | (rename_i e; exact MurkyText.murky e h)
      | (rename_i e; exact MurkyText.cons _ e h)
      | (refine CutText.here _ ?_; simp [cutTexts]; done)

instance : MurkyText DecodeTagSectionError where
  murky e h := by
    cases e <;> first
      | (cases h; done)
      | (rename_i e; exact MurkyText.murky e h)
      | (rename_i e; exact MurkyText.cons _ e h)
      | (refine CutText.here _ ?_; simp [cutTexts]; done)

instance : MurkyText DecodeTypeSectionError where
  murky e h := by
    cases e <;> first
      | (cases h; done)
      | (rename_i e; exact MurkyText.murky e h)
      | (rename_i e; exact MurkyText.cons _ e h)
      | (refine CutText.here _ ?_; simp [cutTexts]; done)

instance : MurkyText InvalidSectionIdError where
  murky e h := by
    cases e <;> first
      | (cases h; done)
      | (rename_i e; exact MurkyText.murky e h)
      | (rename_i e; exact MurkyText.cons _ e h)
      | (refine CutText.here _ ?_; simp [cutTexts]; done)

instance : MurkyText ParsePreambleError where
  murky e h := by
    cases e <;> first
      | (cases h; done)
      | (rename_i e; exact MurkyText.murky e h)
      | (rename_i e; exact MurkyText.cons _ e h)
      | (refine CutText.here _ ?_; simp [cutTexts]; done)

instance : MurkyText DecodeSectionHeaderError where
  murky e h := by
    cases e <;> first
      | (cases h; done)
      | (rename_i e; exact MurkyText.murky e h)
      | (rename_i e; exact MurkyText.cons _ e h)
      | (refine CutText.here _ ?_; simp [cutTexts]; done)

instance : MurkyText DecodeModuleError where
  murky e h := by
    cases e <;> first
      | (cases h; done)
      | (rename_i e; exact MurkyText.murky e h)
      | (rename_i e; exact MurkyText.cons _ e h)
      | (refine CutText.here _ ?_; simp [cutTexts]; done)

end Wadec
