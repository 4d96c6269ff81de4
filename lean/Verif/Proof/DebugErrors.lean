import Verif.Proof.DebugTypes
import Verif.Model.DebugErrors

/-! Generated by tools/gen_tells.py: the `Debug` trees of the error types of /repo/src/decode determine the values. -/

namespace Wadec

/-- the names of types are words -/
class WordName (α : Type) [TypeName α] : Prop where
  word : isWord (typeName α) = true

instance : Tells DecodeU32Error where
  ok h a := by
    cases a with
    | TooLarge => exact ok_word rfl
    | RepresentationTooLong => exact ok_word rfl
    | Io _ => exact ok_tuple rfl (okI_cons (Tells.ok h _) okI_nil)
  inj h a b e := by
    cases a with
    | TooLarge =>
      cases b with
      | TooLarge => rfl
      | _ => exact noWay e rfl
    | RepresentationTooLong =>
      cases b with
      | RepresentationTooLong => rfl
      | _ => exact noWay e rfl
    | Io _ =>
      cases b with
      | Io _ => exact congrArg DecodeU32Error.Io (Tells.inj h (tuple1 e))
      | _ => exact noWay e rfl

instance {E : Type} [Debug E] [TypeName E] [Tells E] [WordName E] : Tells (DecodeListError E) where
  ok h a := by
    cases a with
    | DecodeLength _ => exact ok_tuple rfl (okI_cons (Tells.ok h _) okI_nil)
    | ParseElement _ _ => exact ok_struct rfl (okF_cons rfl (Tells.ok h _) (okF_cons rfl
        (ok_path WordName.word (Tells.ok h _)) okF_nil))
  inj h a b e := by
    cases a with
    | DecodeLength _ =>
      cases b with
      | DecodeLength _ => exact congrArg DecodeListError.DecodeLength (Tells.inj h (tuple1 e))
      | _ => exact noWay e rfl
    | ParseElement _ _ =>
      cases b with
      | ParseElement _ _ =>
        obtain ⟨p, q⟩ := struct2 e
        cases Tells.inj h p; cases Tells.inj h (path_eq q); rfl
      | _ => exact noWay e rfl

instance : Tells DecodeU64Error where
  ok h a := by
    cases a with
    | TooLarge => exact ok_word rfl
    | RepresentationTooLong => exact ok_word rfl
    | Io _ => exact ok_tuple rfl (okI_cons (Tells.ok h _) okI_nil)
  inj h a b e := by
    cases a with
    | TooLarge =>
      cases b with
      | TooLarge => rfl
      | _ => exact noWay e rfl
    | RepresentationTooLong =>
      cases b with
      | RepresentationTooLong => rfl
      | _ => exact noWay e rfl
    | Io _ =>
      cases b with
      | Io _ => exact congrArg DecodeU64Error.Io (Tells.inj h (tuple1 e))
      | _ => exact noWay e rfl

instance : Tells DecodeI32Error where
  ok h a := by
    cases a with
    | TooLarge => exact ok_word rfl
    | RepresentationTooLong => exact ok_word rfl
    | Io _ => exact ok_tuple rfl (okI_cons (Tells.ok h _) okI_nil)
  inj h a b e := by
    cases a with
    | TooLarge =>
      cases b with
      | TooLarge => rfl
      | _ => exact noWay e rfl
    | RepresentationTooLong =>
      cases b with
      | RepresentationTooLong => rfl
      | _ => exact noWay e rfl
    | Io _ =>
      cases b with
      | Io _ => exact congrArg DecodeI32Error.Io (Tells.inj h (tuple1 e))
      | _ => exact noWay e rfl

instance : Tells DecodeI64Error where
  ok h a := by
    cases a with
    | RepresentationTooLong => exact ok_word rfl
    | IncorrectSignExtension => exact ok_word rfl
    | Io _ => exact ok_tuple rfl (okI_cons (Tells.ok h _) okI_nil)
  inj h a b e := by
    cases a with
    | RepresentationTooLong =>
      cases b with
      | RepresentationTooLong => rfl
      | _ => exact noWay e rfl
    | IncorrectSignExtension =>
      cases b with
      | IncorrectSignExtension => rfl
      | _ => exact noWay e rfl
    | Io _ =>
      cases b with
      | Io _ => exact congrArg DecodeI64Error.Io (Tells.inj h (tuple1 e))
      | _ => exact noWay e rfl

instance : Tells DecodeS33Error where
  ok h a := by
    cases a with
    | RepresentationTooLong => exact ok_word rfl
    | IncorrectSignExtension => exact ok_word rfl
    | Io _ => exact ok_tuple rfl (okI_cons (Tells.ok h _) okI_nil)
  inj h a b e := by
    cases a with
    | RepresentationTooLong =>
      cases b with
      | RepresentationTooLong => rfl
      | _ => exact noWay e rfl
    | IncorrectSignExtension =>
      cases b with
      | IncorrectSignExtension => rfl
      | _ => exact noWay e rfl
    | Io _ =>
      cases b with
      | Io _ => exact congrArg DecodeS33Error.Io (Tells.inj h (tuple1 e))
      | _ => exact noWay e rfl

instance : WordName DecodeLabelIdxError := ⟨rfl⟩

instance : Tells DecodeLabelIdxError where
  ok h a := by
    cases a with
    | mk _ => exact ok_tuple rfl (okI_cons (Tells.ok h _) okI_nil)
  inj h a b e := by
    cases a with
    | mk _ => cases b with
      | mk _ => exact congrArg DecodeLabelIdxError.mk (Tells.inj h (tuple1 e))

instance : WordName DecodeFuncIdxError := ⟨rfl⟩

instance : Tells DecodeFuncIdxError where
  ok h a := by
    cases a with
    | mk _ => exact ok_tuple rfl (okI_cons (Tells.ok h _) okI_nil)
  inj h a b e := by
    cases a with
    | mk _ => cases b with
      | mk _ => exact congrArg DecodeFuncIdxError.mk (Tells.inj h (tuple1 e))

instance : Tells DecodeTableIdxError where
  ok h a := by
    cases a with
    | mk _ => exact ok_tuple rfl (okI_cons (Tells.ok h _) okI_nil)
  inj h a b e := by
    cases a with
    | mk _ => cases b with
      | mk _ => exact congrArg DecodeTableIdxError.mk (Tells.inj h (tuple1 e))

instance : WordName DecodeTypeIdxError := ⟨rfl⟩

instance : Tells DecodeTypeIdxError where
  ok h a := by
    cases a with
    | mk _ => exact ok_tuple rfl (okI_cons (Tells.ok h _) okI_nil)
  inj h a b e := by
    cases a with
    | mk _ => cases b with
      | mk _ => exact congrArg DecodeTypeIdxError.mk (Tells.inj h (tuple1 e))

instance : Tells DecodeTagIdxError where
  ok h a := by
    cases a with
    | mk _ => exact ok_tuple rfl (okI_cons (Tells.ok h _) okI_nil)
  inj h a b e := by
    cases a with
    | mk _ => cases b with
      | mk _ => exact congrArg DecodeTagIdxError.mk (Tells.inj h (tuple1 e))

instance : WordName CatchError := ⟨rfl⟩

instance : Tells CatchError where
  ok h a := by
    cases a with
    | ReadMarkerByte _ => exact ok_tuple rfl (okI_cons (Tells.ok h _) okI_nil)
    | InvalidMarkerByte _ => exact ok_tuple rfl (okI_cons (Tells.ok h _) okI_nil)
    | DecodeTagIdx _ => exact ok_tuple rfl (okI_cons (Tells.ok h _) okI_nil)
    | DecodeLabelIdx _ => exact ok_tuple rfl (okI_cons (Tells.ok h _) okI_nil)
  inj h a b e := by
    cases a with
    | ReadMarkerByte _ =>
      cases b with
      | ReadMarkerByte _ => exact congrArg CatchError.ReadMarkerByte (Tells.inj h (tuple1 e))
      | _ => exact noWay e rfl
    | InvalidMarkerByte _ =>
      cases b with
      | InvalidMarkerByte _ => exact congrArg CatchError.InvalidMarkerByte (Tells.inj h (tuple1 e))
      | _ => exact noWay e rfl
    | DecodeTagIdx _ =>
      cases b with
      | DecodeTagIdx _ => exact congrArg CatchError.DecodeTagIdx (Tells.inj h (tuple1 e))
      | _ => exact noWay e rfl
    | DecodeLabelIdx _ =>
      cases b with
      | DecodeLabelIdx _ => exact congrArg CatchError.DecodeLabelIdx (Tells.inj h (tuple1 e))
      | _ => exact noWay e rfl

instance : Tells BlockTypeError where
  ok h a := by
    cases a with
    | ReadMarkerByte _ => exact ok_tuple rfl (okI_cons (Tells.ok h _) okI_nil)
    | DecodeIndex _ => exact ok_tuple rfl (okI_cons (Tells.ok h _) okI_nil)
    | NegativeTypeIndex _ => exact ok_tuple rfl (okI_cons (Tells.ok h _) okI_nil)
  inj h a b e := by
    cases a with
    | ReadMarkerByte _ =>
      cases b with
      | ReadMarkerByte _ => exact congrArg BlockTypeError.ReadMarkerByte (Tells.inj h (tuple1 e))
      | _ => exact noWay e rfl
    | DecodeIndex _ =>
      cases b with
      | DecodeIndex _ => exact congrArg BlockTypeError.DecodeIndex (Tells.inj h (tuple1 e))
      | _ => exact noWay e rfl
    | NegativeTypeIndex _ =>
      cases b with
      | NegativeTypeIndex _ => exact congrArg BlockTypeError.NegativeTypeIndex (Tells.inj h (tuple1 e))
      | _ => exact noWay e rfl

instance : Tells DecodeHeapTypeError where
  ok h a := by
    cases a with
    | ReadMarkerByte _ => exact ok_tuple rfl (okI_cons (Tells.ok h _) okI_nil)
    | DecodeTypeIndex _ => exact ok_tuple rfl (okI_cons (Tells.ok h _) okI_nil)
    | NegativeTypeIndex _ => exact ok_tuple rfl (okI_cons (Tells.ok h _) okI_nil)
  inj h a b e := by
    cases a with
    | ReadMarkerByte _ =>
      cases b with
      | ReadMarkerByte _ => exact congrArg DecodeHeapTypeError.ReadMarkerByte (Tells.inj h (tuple1 e))
      | _ => exact noWay e rfl
    | DecodeTypeIndex _ =>
      cases b with
      | DecodeTypeIndex _ => exact congrArg DecodeHeapTypeError.DecodeTypeIndex (Tells.inj h (tuple1 e))
      | _ => exact noWay e rfl
    | NegativeTypeIndex _ =>
      cases b with
      | NegativeTypeIndex _ => exact congrArg DecodeHeapTypeError.NegativeTypeIndex (Tells.inj h (tuple1 e))
      | _ => exact noWay e rfl

instance : Tells ControlError where
  ok h a := by
    cases a with
    | LabelIdx _ => exact ok_tuple rfl (okI_cons (Tells.ok h _) okI_nil)
    | DecodeLabelIdxVector _ => exact ok_tuple rfl (okI_cons (Tells.ok h _) okI_nil)
    | FuncIdx _ => exact ok_tuple rfl (okI_cons (Tells.ok h _) okI_nil)
    | TableIdx _ => exact ok_tuple rfl (okI_cons (Tells.ok h _) okI_nil)
    | TypeIdx _ => exact ok_tuple rfl (okI_cons (Tells.ok h _) okI_nil)
    | TagIdx _ => exact ok_tuple rfl (okI_cons (Tells.ok h _) okI_nil)
    | DecodeCatchListError _ => exact ok_tuple rfl (okI_cons (Tells.ok h _) okI_nil)
    | BlockType _ => exact ok_tuple rfl (okI_cons (Tells.ok h _) okI_nil)
    | UnexpectedElse => exact ok_word rfl
    | ReadCastNullabilityMarker _ => exact ok_tuple rfl (okI_cons (Tells.ok h _) okI_nil)
    | InvalidCastNullabilityMarker _ => exact ok_tuple rfl (okI_cons (Tells.ok h _) okI_nil)
    | HeapType _ => exact ok_tuple rfl (okI_cons (Tells.ok h _) okI_nil)
  inj h a b e := by
    cases a with
    | LabelIdx _ =>
      cases b with
      | LabelIdx _ => exact congrArg ControlError.LabelIdx (Tells.inj h (tuple1 e))
      | _ => exact noWay e rfl
    | DecodeLabelIdxVector _ =>
      cases b with
      | DecodeLabelIdxVector _ => exact congrArg ControlError.DecodeLabelIdxVector (Tells.inj h (tuple1 e))
      | _ => exact noWay e rfl
    | FuncIdx _ =>
      cases b with
      | FuncIdx _ => exact congrArg ControlError.FuncIdx (Tells.inj h (tuple1 e))
      | _ => exact noWay e rfl
    | TableIdx _ =>
      cases b with
      | TableIdx _ => exact congrArg ControlError.TableIdx (Tells.inj h (tuple1 e))
      | _ => exact noWay e rfl
    | TypeIdx _ =>
      cases b with
      | TypeIdx _ => exact congrArg ControlError.TypeIdx (Tells.inj h (tuple1 e))
      | _ => exact noWay e rfl
    | TagIdx _ =>
      cases b with
      | TagIdx _ => exact congrArg ControlError.TagIdx (Tells.inj h (tuple1 e))
      | _ => exact noWay e rfl
    | DecodeCatchListError _ =>
      cases b with
      | DecodeCatchListError _ => exact congrArg ControlError.DecodeCatchListError (Tells.inj h (tuple1 e))
      | _ => exact noWay e rfl
    | BlockType _ =>
      cases b with
      | BlockType _ => exact congrArg ControlError.BlockType (Tells.inj h (tuple1 e))
      | _ => exact noWay e rfl
    | UnexpectedElse =>
      cases b with
      | UnexpectedElse => rfl
      | _ => exact noWay e rfl
    | ReadCastNullabilityMarker _ =>
      cases b with
      | ReadCastNullabilityMarker _ => exact congrArg ControlError.ReadCastNullabilityMarker (Tells.inj h (tuple1 e))
      | _ => exact noWay e rfl
    | InvalidCastNullabilityMarker _ =>
      cases b with
      | InvalidCastNullabilityMarker _ => exact congrArg ControlError.InvalidCastNullabilityMarker (Tells.inj h (tuple1 e))
      | _ => exact noWay e rfl
    | HeapType _ =>
      cases b with
      | HeapType _ => exact congrArg ControlError.HeapType (Tells.inj h (tuple1 e))
      | _ => exact noWay e rfl

instance : Tells ReferenceError where
  ok h a := by
    cases a with
    | HeapType _ => exact ok_tuple rfl (okI_cons (Tells.ok h _) okI_nil)
    | FuncIdx _ => exact ok_tuple rfl (okI_cons (Tells.ok h _) okI_nil)
    | ReadSubOpcode _ => exact ok_tuple rfl (okI_cons (Tells.ok h _) okI_nil)
  inj h a b e := by
    cases a with
    | HeapType _ =>
      cases b with
      | HeapType _ => exact congrArg ReferenceError.HeapType (Tells.inj h (tuple1 e))
      | _ => exact noWay e rfl
    | FuncIdx _ =>
      cases b with
      | FuncIdx _ => exact congrArg ReferenceError.FuncIdx (Tells.inj h (tuple1 e))
      | _ => exact noWay e rfl
    | ReadSubOpcode _ =>
      cases b with
      | ReadSubOpcode _ => exact congrArg ReferenceError.ReadSubOpcode (Tells.inj h (tuple1 e))
      | _ => exact noWay e rfl

instance : Tells DecodeDataIdxError where
  ok h a := by
    cases a with
    | mk _ => exact ok_tuple rfl (okI_cons (Tells.ok h _) okI_nil)
  inj h a b e := by
    cases a with
    | mk _ => cases b with
      | mk _ => exact congrArg DecodeDataIdxError.mk (Tells.inj h (tuple1 e))

instance : Tells DecodeElemIdxError where
  ok h a := by
    cases a with
    | mk _ => exact ok_tuple rfl (okI_cons (Tells.ok h _) okI_nil)
  inj h a b e := by
    cases a with
    | mk _ => cases b with
      | mk _ => exact congrArg DecodeElemIdxError.mk (Tells.inj h (tuple1 e))

instance : Tells AggregateError where
  ok h a := by
    cases a with
    | TypeIdx _ => exact ok_tuple rfl (okI_cons (Tells.ok h _) okI_nil)
    | FieldIndex _ => exact ok_tuple rfl (okI_cons (Tells.ok h _) okI_nil)
    | DataIdx _ => exact ok_tuple rfl (okI_cons (Tells.ok h _) okI_nil)
    | ElemIdx _ => exact ok_tuple rfl (okI_cons (Tells.ok h _) okI_nil)
    | ArrayFixedLength _ => exact ok_tuple rfl (okI_cons (Tells.ok h _) okI_nil)
  inj h a b e := by
    cases a with
    | TypeIdx _ =>
      cases b with
      | TypeIdx _ => exact congrArg AggregateError.TypeIdx (Tells.inj h (tuple1 e))
      | _ => exact noWay e rfl
    | FieldIndex _ =>
      cases b with
      | FieldIndex _ => exact congrArg AggregateError.FieldIndex (Tells.inj h (tuple1 e))
      | _ => exact noWay e rfl
    | DataIdx _ =>
      cases b with
      | DataIdx _ => exact congrArg AggregateError.DataIdx (Tells.inj h (tuple1 e))
      | _ => exact noWay e rfl
    | ElemIdx _ =>
      cases b with
      | ElemIdx _ => exact congrArg AggregateError.ElemIdx (Tells.inj h (tuple1 e))
      | _ => exact noWay e rfl
    | ArrayFixedLength _ =>
      cases b with
      | ArrayFixedLength _ => exact congrArg AggregateError.ArrayFixedLength (Tells.inj h (tuple1 e))
      | _ => exact noWay e rfl

instance : Tells InvalidAbsHeapTypeMarkerError where
  ok h a := by
    cases a with
    | mk _ => exact ok_tuple rfl (okI_cons (Tells.ok h _) okI_nil)
  inj h a b e := by
    cases a with
    | mk _ => cases b with
      | mk _ => exact congrArg InvalidAbsHeapTypeMarkerError.mk (Tells.inj h (tuple1 e))

instance : Tells DecodeAbsHeapTypeError where
  ok h a := by
    cases a with
    | ReadMarkerByte _ => exact ok_tuple rfl (okI_cons (Tells.ok h _) okI_nil)
    | InvalidMarkerByte _ => exact ok_tuple rfl (okI_cons (Tells.ok h _) okI_nil)
  inj h a b e := by
    cases a with
    | ReadMarkerByte _ =>
      cases b with
      | ReadMarkerByte _ => exact congrArg DecodeAbsHeapTypeError.ReadMarkerByte (Tells.inj h (tuple1 e))
      | _ => exact noWay e rfl
    | InvalidMarkerByte _ =>
      cases b with
      | InvalidMarkerByte _ => exact congrArg DecodeAbsHeapTypeError.InvalidMarkerByte (Tells.inj h (tuple1 e))
      | _ => exact noWay e rfl

instance : Tells DecodeRefTypeError where
  ok h a := by
    cases a with
    | Io _ => exact ok_tuple rfl (okI_cons (Tells.ok h _) okI_nil)
    | DecodeHeapType _ => exact ok_tuple rfl (okI_cons (Tells.ok h _) okI_nil)
    | InvalidMarkerByte _ => exact ok_tuple rfl (okI_cons (Tells.ok h _) okI_nil)
  inj h a b e := by
    cases a with
    | Io _ =>
      cases b with
      | Io _ => exact congrArg DecodeRefTypeError.Io (Tells.inj h (tuple1 e))
      | _ => exact noWay e rfl
    | DecodeHeapType _ =>
      cases b with
      | DecodeHeapType _ => exact congrArg DecodeRefTypeError.DecodeHeapType (Tells.inj h (tuple1 e))
      | _ => exact noWay e rfl
    | InvalidMarkerByte _ =>
      cases b with
      | InvalidMarkerByte _ => exact congrArg DecodeRefTypeError.InvalidMarkerByte (Tells.inj h (tuple1 e))
      | _ => exact noWay e rfl

instance : WordName DecodeValTypeError := ⟨rfl⟩

instance : Tells DecodeValTypeError where
  ok h a := by
    cases a with
    | Io _ => exact ok_tuple rfl (okI_cons (Tells.ok h _) okI_nil)
    | DecodeRefType _ => exact ok_tuple rfl (okI_cons (Tells.ok h _) okI_nil)
  inj h a b e := by
    cases a with
    | Io _ =>
      cases b with
      | Io _ => exact congrArg DecodeValTypeError.Io (Tells.inj h (tuple1 e))
      | _ => exact noWay e rfl
    | DecodeRefType _ =>
      cases b with
      | DecodeRefType _ => exact congrArg DecodeValTypeError.DecodeRefType (Tells.inj h (tuple1 e))
      | _ => exact noWay e rfl

instance : Tells ParametricError where
  ok h a := by
    cases a with
    | DecodeList _ => exact ok_tuple rfl (okI_cons (Tells.ok h _) okI_nil)
  inj h a b e := by
    cases a with
    | DecodeList _ => cases b with
      | DecodeList _ => exact congrArg ParametricError.DecodeList (Tells.inj h (tuple1 e))

instance : Tells DecodeLocalIdxError where
  ok h a := by
    cases a with
    | mk _ => exact ok_tuple rfl (okI_cons (Tells.ok h _) okI_nil)
  inj h a b e := by
    cases a with
    | mk _ => cases b with
      | mk _ => exact congrArg DecodeLocalIdxError.mk (Tells.inj h (tuple1 e))

instance : Tells DecodeGlobalIdxError where
  ok h a := by
    cases a with
    | mk _ => exact ok_tuple rfl (okI_cons (Tells.ok h _) okI_nil)
  inj h a b e := by
    cases a with
    | mk _ => cases b with
      | mk _ => exact congrArg DecodeGlobalIdxError.mk (Tells.inj h (tuple1 e))

instance : Tells VariableError where
  ok h a := by
    cases a with
    | LocalIdx _ => exact ok_tuple rfl (okI_cons (Tells.ok h _) okI_nil)
    | GlobalIdx _ => exact ok_tuple rfl (okI_cons (Tells.ok h _) okI_nil)
  inj h a b e := by
    cases a with
    | LocalIdx _ =>
      cases b with
      | LocalIdx _ => exact congrArg VariableError.LocalIdx (Tells.inj h (tuple1 e))
      | _ => exact noWay e rfl
    | GlobalIdx _ =>
      cases b with
      | GlobalIdx _ => exact congrArg VariableError.GlobalIdx (Tells.inj h (tuple1 e))
      | _ => exact noWay e rfl

instance : Tells TableError where
  ok h a := by
    cases a with
    | TableIdx _ => exact ok_tuple rfl (okI_cons (Tells.ok h _) okI_nil)
    | ElemIdx _ => exact ok_tuple rfl (okI_cons (Tells.ok h _) okI_nil)
  inj h a b e := by
    cases a with
    | TableIdx _ =>
      cases b with
      | TableIdx _ => exact congrArg TableError.TableIdx (Tells.inj h (tuple1 e))
      | _ => exact noWay e rfl
    | ElemIdx _ =>
      cases b with
      | ElemIdx _ => exact congrArg TableError.ElemIdx (Tells.inj h (tuple1 e))
      | _ => exact noWay e rfl

instance : Tells DecodeMemIdxError where
  ok h a := by
    cases a with
    | mk _ => exact ok_tuple rfl (okI_cons (Tells.ok h _) okI_nil)
  inj h a b e := by
    cases a with
    | mk _ => cases b with
      | mk _ => exact congrArg DecodeMemIdxError.mk (Tells.inj h (tuple1 e))

instance : Tells MemargError where
  ok h a := by
    cases a with
    | InvalidFlagsBit _ => exact ok_tuple rfl (okI_cons (Tells.ok h _) okI_nil)
    | Align _ => exact ok_tuple rfl (okI_cons (Tells.ok h _) okI_nil)
    | Offset _ => exact ok_tuple rfl (okI_cons (Tells.ok h _) okI_nil)
    | MemIdx _ => exact ok_tuple rfl (okI_cons (Tells.ok h _) okI_nil)
  inj h a b e := by
    cases a with
    | InvalidFlagsBit _ =>
      cases b with
      | InvalidFlagsBit _ => exact congrArg MemargError.InvalidFlagsBit (Tells.inj h (tuple1 e))
      | _ => exact noWay e rfl
    | Align _ =>
      cases b with
      | Align _ => exact congrArg MemargError.Align (Tells.inj h (tuple1 e))
      | _ => exact noWay e rfl
    | Offset _ =>
      cases b with
      | Offset _ => exact congrArg MemargError.Offset (Tells.inj h (tuple1 e))
      | _ => exact noWay e rfl
    | MemIdx _ =>
      cases b with
      | MemIdx _ => exact congrArg MemargError.MemIdx (Tells.inj h (tuple1 e))
      | _ => exact noWay e rfl

instance : Tells MemoryError where
  ok h a := by
    cases a with
    | DecodeMemarg _ => exact ok_tuple rfl (okI_cons (Tells.ok h _) okI_nil)
    | DecodeDataIdx _ => exact ok_tuple rfl (okI_cons (Tells.ok h _) okI_nil)
    | DecodeMemIdx _ => exact ok_tuple rfl (okI_cons (Tells.ok h _) okI_nil)
  inj h a b e := by
    cases a with
    | DecodeMemarg _ =>
      cases b with
      | DecodeMemarg _ => exact congrArg MemoryError.DecodeMemarg (Tells.inj h (tuple1 e))
      | _ => exact noWay e rfl
    | DecodeDataIdx _ =>
      cases b with
      | DecodeDataIdx _ => exact congrArg MemoryError.DecodeDataIdx (Tells.inj h (tuple1 e))
      | _ => exact noWay e rfl
    | DecodeMemIdx _ =>
      cases b with
      | DecodeMemIdx _ => exact congrArg MemoryError.DecodeMemIdx (Tells.inj h (tuple1 e))
      | _ => exact noWay e rfl

instance : Tells DecodeFloat32Error where
  ok h a := by
    cases a with
    | ReadPayload _ => exact ok_tuple rfl (okI_cons (Tells.ok h _) okI_nil)
  inj h a b e := by
    cases a with
    | ReadPayload _ => cases b with
      | ReadPayload _ => exact congrArg DecodeFloat32Error.ReadPayload (Tells.inj h (tuple1 e))

instance : Tells DecodeFloat64Error where
  ok h a := by
    cases a with
    | ReadPayload _ => exact ok_tuple rfl (okI_cons (Tells.ok h _) okI_nil)
  inj h a b e := by
    cases a with
    | ReadPayload _ => cases b with
      | ReadPayload _ => exact congrArg DecodeFloat64Error.ReadPayload (Tells.inj h (tuple1 e))

instance : Tells NumericError where
  ok h a := by
    cases a with
    | ReadOpcode _ => exact ok_tuple rfl (okI_cons (Tells.ok h _) okI_nil)
    | DecodeI32 _ => exact ok_tuple rfl (okI_cons (Tells.ok h _) okI_nil)
    | DecodeI64 _ => exact ok_tuple rfl (okI_cons (Tells.ok h _) okI_nil)
    | DecodeF32 _ => exact ok_tuple rfl (okI_cons (Tells.ok h _) okI_nil)
    | DecodeF64 _ => exact ok_tuple rfl (okI_cons (Tells.ok h _) okI_nil)
  inj h a b e := by
    cases a with
    | ReadOpcode _ =>
      cases b with
      | ReadOpcode _ => exact congrArg NumericError.ReadOpcode (Tells.inj h (tuple1 e))
      | _ => exact noWay e rfl
    | DecodeI32 _ =>
      cases b with
      | DecodeI32 _ => exact congrArg NumericError.DecodeI32 (Tells.inj h (tuple1 e))
      | _ => exact noWay e rfl
    | DecodeI64 _ =>
      cases b with
      | DecodeI64 _ => exact congrArg NumericError.DecodeI64 (Tells.inj h (tuple1 e))
      | _ => exact noWay e rfl
    | DecodeF32 _ =>
      cases b with
      | DecodeF32 _ => exact congrArg NumericError.DecodeF32 (Tells.inj h (tuple1 e))
      | _ => exact noWay e rfl
    | DecodeF64 _ =>
      cases b with
      | DecodeF64 _ => exact congrArg NumericError.DecodeF64 (Tells.inj h (tuple1 e))
      | _ => exact noWay e rfl

instance : Tells LaneIdxError where
  ok h a := by
    cases a with
    | mk _ => exact ok_tuple rfl (okI_cons (Tells.ok h _) okI_nil)
  inj h a b e := by
    cases a with
    | mk _ => cases b with
      | mk _ => exact congrArg LaneIdxError.mk (Tells.inj h (tuple1 e))

instance : Tells VectorError where
  ok h a := by
    cases a with
    | ReadOpcode _ => exact ok_tuple rfl (okI_cons (Tells.ok h _) okI_nil)
    | Memarg _ => exact ok_tuple rfl (okI_cons (Tells.ok h _) okI_nil)
    | LaneIdx _ => exact ok_tuple rfl (okI_cons (Tells.ok h _) okI_nil)
    | ReadImmediateBytes _ => exact ok_tuple rfl (okI_cons (Tells.ok h _) okI_nil)
    | InvalidOpcode _ => exact ok_tuple rfl (okI_cons (Tells.ok h _) okI_nil)
  inj h a b e := by
    cases a with
    | ReadOpcode _ =>
      cases b with
      | ReadOpcode _ => exact congrArg VectorError.ReadOpcode (Tells.inj h (tuple1 e))
      | _ => exact noWay e rfl
    | Memarg _ =>
      cases b with
      | Memarg _ => exact congrArg VectorError.Memarg (Tells.inj h (tuple1 e))
      | _ => exact noWay e rfl
    | LaneIdx _ =>
      cases b with
      | LaneIdx _ => exact congrArg VectorError.LaneIdx (Tells.inj h (tuple1 e))
      | _ => exact noWay e rfl
    | ReadImmediateBytes _ =>
      cases b with
      | ReadImmediateBytes _ => exact congrArg VectorError.ReadImmediateBytes (Tells.inj h (tuple1 e))
      | _ => exact noWay e rfl
    | InvalidOpcode _ =>
      cases b with
      | InvalidOpcode _ => exact congrArg VectorError.InvalidOpcode (Tells.inj h (tuple1 e))
      | _ => exact noWay e rfl

instance : Tells ParseError where
  ok h a := by
    cases a with
    | ReadOpcode _ => exact ok_tuple rfl (okI_cons (Tells.ok h _) okI_nil)
    | Control _ => exact ok_tuple rfl (okI_cons (Tells.ok h _) okI_nil)
    | Reference _ => exact ok_tuple rfl (okI_cons (Tells.ok h _) okI_nil)
    | Aggregate _ => exact ok_tuple rfl (okI_cons (Tells.ok h _) okI_nil)
    | Parametric _ => exact ok_tuple rfl (okI_cons (Tells.ok h _) okI_nil)
    | Variable _ => exact ok_tuple rfl (okI_cons (Tells.ok h _) okI_nil)
    | Table _ => exact ok_tuple rfl (okI_cons (Tells.ok h _) okI_nil)
    | Memory _ => exact ok_tuple rfl (okI_cons (Tells.ok h _) okI_nil)
    | Numeric _ => exact ok_tuple rfl (okI_cons (Tells.ok h _) okI_nil)
    | Vector _ => exact ok_tuple rfl (okI_cons (Tells.ok h _) okI_nil)
    | InvalidOpcode _ => exact ok_tuple rfl (okI_cons (Tells.ok h _) okI_nil)
    | InvalidMarkerByteAfterFC _ => exact ok_tuple rfl (okI_cons (Tells.ok h _) okI_nil)
    | InvalidMarkerByteAfterFB _ => exact ok_tuple rfl (okI_cons (Tells.ok h _) okI_nil)
  inj h a b e := by
    cases a with
    | ReadOpcode _ =>
      cases b with
      | ReadOpcode _ => exact congrArg ParseError.ReadOpcode (Tells.inj h (tuple1 e))
      | _ => exact noWay e rfl
    | Control _ =>
      cases b with
      | Control _ => exact congrArg ParseError.Control (Tells.inj h (tuple1 e))
      | _ => exact noWay e rfl
    | Reference _ =>
      cases b with
      | Reference _ => exact congrArg ParseError.Reference (Tells.inj h (tuple1 e))
      | _ => exact noWay e rfl
    | Aggregate _ =>
      cases b with
      | Aggregate _ => exact congrArg ParseError.Aggregate (Tells.inj h (tuple1 e))
      | _ => exact noWay e rfl
    | Parametric _ =>
      cases b with
      | Parametric _ => exact congrArg ParseError.Parametric (Tells.inj h (tuple1 e))
      | _ => exact noWay e rfl
    | Variable _ =>
      cases b with
      | Variable _ => exact congrArg ParseError.Variable (Tells.inj h (tuple1 e))
      | _ => exact noWay e rfl
    | Table _ =>
      cases b with
      | Table _ => exact congrArg ParseError.Table (Tells.inj h (tuple1 e))
      | _ => exact noWay e rfl
    | Memory _ =>
      cases b with
      | Memory _ => exact congrArg ParseError.Memory (Tells.inj h (tuple1 e))
      | _ => exact noWay e rfl
    | Numeric _ =>
      cases b with
      | Numeric _ => exact congrArg ParseError.Numeric (Tells.inj h (tuple1 e))
      | _ => exact noWay e rfl
    | Vector _ =>
      cases b with
      | Vector _ => exact congrArg ParseError.Vector (Tells.inj h (tuple1 e))
      | _ => exact noWay e rfl
    | InvalidOpcode _ =>
      cases b with
      | InvalidOpcode _ => exact congrArg ParseError.InvalidOpcode (Tells.inj h (tuple1 e))
      | _ => exact noWay e rfl
    | InvalidMarkerByteAfterFC _ =>
      cases b with
      | InvalidMarkerByteAfterFC _ => exact congrArg ParseError.InvalidMarkerByteAfterFC (Tells.inj h (tuple1 e))
      | _ => exact noWay e rfl
    | InvalidMarkerByteAfterFB _ =>
      cases b with
      | InvalidMarkerByteAfterFB _ => exact congrArg ParseError.InvalidMarkerByteAfterFB (Tells.inj h (tuple1 e))
      | _ => exact noWay e rfl

instance : WordName ParseExpressionError := ⟨rfl⟩

instance : Tells ParseExpressionError where
  ok h a := by
    cases a with
    | ParseInstruction _ => exact ok_tuple rfl (okI_cons (Tells.ok h _) okI_nil)
    | UnexpectedElse => exact ok_word rfl
  inj h a b e := by
    cases a with
    | ParseInstruction _ =>
      cases b with
      | ParseInstruction _ => exact congrArg ParseExpressionError.ParseInstruction (Tells.inj h (tuple1 e))
      | _ => exact noWay e rfl
    | UnexpectedElse =>
      cases b with
      | UnexpectedElse => rfl
      | _ => exact noWay e rfl

instance : Tells DecodeByteVectorError where
  ok h a := by
    cases a with
    | DecodeLength _ => exact ok_tuple rfl (okI_cons (Tells.ok h _) okI_nil)
    | ReadElements _ => exact ok_tuple rfl (okI_cons (Tells.ok h _) okI_nil)
  inj h a b e := by
    cases a with
    | DecodeLength _ =>
      cases b with
      | DecodeLength _ => exact congrArg DecodeByteVectorError.DecodeLength (Tells.inj h (tuple1 e))
      | _ => exact noWay e rfl
    | ReadElements _ =>
      cases b with
      | ReadElements _ => exact congrArg DecodeByteVectorError.ReadElements (Tells.inj h (tuple1 e))
      | _ => exact noWay e rfl

instance : Tells DecodeNameError where
  ok h a := by
    cases a with
    | DecodeByteVector _ => exact ok_tuple rfl (okI_cons (Tells.ok h _) okI_nil)
    | Utf8 _ => exact ok_tuple rfl (okI_cons (Tells.ok h _) okI_nil)
  inj h a b e := by
    cases a with
    | DecodeByteVector _ =>
      cases b with
      | DecodeByteVector _ => exact congrArg DecodeNameError.DecodeByteVector (Tells.inj h (tuple1 e))
      | _ => exact noWay e rfl
    | Utf8 _ =>
      cases b with
      | Utf8 _ => exact congrArg DecodeNameError.Utf8 (Tells.inj h (tuple1 e))
      | _ => exact noWay e rfl

instance : Tells DecodeStorageTypeError where
  ok h a := by
    cases a with
    | ReadMarkerByte _ => exact ok_tuple rfl (okI_cons (Tells.ok h _) okI_nil)
    | DecodeValTypeOrPackType _ _ => exact ok_struct rfl (okF_cons rfl (Tells.ok h _) (okF_cons rfl (Tells.ok h _) okF_nil))
  inj h a b e := by
    cases a with
    | ReadMarkerByte _ =>
      cases b with
      | ReadMarkerByte _ => exact congrArg DecodeStorageTypeError.ReadMarkerByte (Tells.inj h (tuple1 e))
      | _ => exact noWay e rfl
    | DecodeValTypeOrPackType _ _ =>
      cases b with
      | DecodeValTypeOrPackType _ _ =>
        obtain ⟨p, q⟩ := struct2 e
        cases Tells.inj h p; cases Tells.inj h q; rfl
      | _ => exact noWay e rfl

instance : Tells InvalidMutabilityByteError where
  ok h a := by
    cases a with
    | mk _ => exact ok_tuple rfl (okI_cons (Tells.ok h _) okI_nil)
  inj h a b e := by
    cases a with
    | mk _ => cases b with
      | mk _ => exact congrArg InvalidMutabilityByteError.mk (Tells.inj h (tuple1 e))

instance : WordName DecodeFieldTypeError := ⟨rfl⟩

instance : Tells DecodeFieldTypeError where
  ok h a := by
    cases a with
    | DecodeStorageType _ => exact ok_tuple rfl (okI_cons (Tells.ok h _) okI_nil)
    | ReadMutabilityMarkerByte _ => exact ok_tuple rfl (okI_cons (Tells.ok h _) okI_nil)
    | DecodeMutability _ => exact ok_tuple rfl (okI_cons (Tells.ok h _) okI_nil)
  inj h a b e := by
    cases a with
    | DecodeStorageType _ =>
      cases b with
      | DecodeStorageType _ => exact congrArg DecodeFieldTypeError.DecodeStorageType (Tells.inj h (tuple1 e))
      | _ => exact noWay e rfl
    | ReadMutabilityMarkerByte _ =>
      cases b with
      | ReadMutabilityMarkerByte _ => exact congrArg DecodeFieldTypeError.ReadMutabilityMarkerByte (Tells.inj h (tuple1 e))
      | _ => exact noWay e rfl
    | DecodeMutability _ =>
      cases b with
      | DecodeMutability _ => exact congrArg DecodeFieldTypeError.DecodeMutability (Tells.inj h (tuple1 e))
      | _ => exact noWay e rfl

instance : Tells DecodeResultTypeError where
  ok h a := by
    cases a with
    | DecodeList _ => exact ok_tuple rfl (okI_cons (Tells.ok h _) okI_nil)
  inj h a b e := by
    cases a with
    | DecodeList _ => cases b with
      | DecodeList _ => exact congrArg DecodeResultTypeError.DecodeList (Tells.inj h (tuple1 e))

instance : Tells DecodeCompTypeError where
  ok h a := by
    cases a with
    | ReadMarkerByte _ => exact ok_tuple rfl (okI_cons (Tells.ok h _) okI_nil)
    | InvalidMarkerByte _ => exact ok_tuple rfl (okI_cons (Tells.ok h _) okI_nil)
    | DecodeStruct _ => exact ok_tuple rfl (okI_cons (Tells.ok h _) okI_nil)
    | DecodeFuncParameters _ => exact ok_tuple rfl (okI_cons (Tells.ok h _) okI_nil)
    | DecodeFuncResults _ => exact ok_tuple rfl (okI_cons (Tells.ok h _) okI_nil)
    | DecodeFieldType _ => exact ok_tuple rfl (okI_cons (Tells.ok h _) okI_nil)
  inj h a b e := by
    cases a with
    | ReadMarkerByte _ =>
      cases b with
      | ReadMarkerByte _ => exact congrArg DecodeCompTypeError.ReadMarkerByte (Tells.inj h (tuple1 e))
      | _ => exact noWay e rfl
    | InvalidMarkerByte _ =>
      cases b with
      | InvalidMarkerByte _ => exact congrArg DecodeCompTypeError.InvalidMarkerByte (Tells.inj h (tuple1 e))
      | _ => exact noWay e rfl
    | DecodeStruct _ =>
      cases b with
      | DecodeStruct _ => exact congrArg DecodeCompTypeError.DecodeStruct (Tells.inj h (tuple1 e))
      | _ => exact noWay e rfl
    | DecodeFuncParameters _ =>
      cases b with
      | DecodeFuncParameters _ => exact congrArg DecodeCompTypeError.DecodeFuncParameters (Tells.inj h (tuple1 e))
      | _ => exact noWay e rfl
    | DecodeFuncResults _ =>
      cases b with
      | DecodeFuncResults _ => exact congrArg DecodeCompTypeError.DecodeFuncResults (Tells.inj h (tuple1 e))
      | _ => exact noWay e rfl
    | DecodeFieldType _ =>
      cases b with
      | DecodeFieldType _ => exact congrArg DecodeCompTypeError.DecodeFieldType (Tells.inj h (tuple1 e))
      | _ => exact noWay e rfl

instance : Tells InvalidPackTypeMarkerError where
  ok h a := by
    cases a with
    | mk _ => exact ok_tuple rfl (okI_cons (Tells.ok h _) okI_nil)
  inj h a b e := by
    cases a with
    | mk _ => cases b with
      | mk _ => exact congrArg InvalidPackTypeMarkerError.mk (Tells.inj h (tuple1 e))

instance : Tells ParseLimitsError where
  ok h a := by
    cases a with
    | ReadFlagByte _ => exact ok_tuple rfl (okI_cons (Tells.ok h _) okI_nil)
    | UnexpectedFlagByte _ => exact ok_tuple rfl (okI_cons (Tells.ok h _) okI_nil)
    | ReadMinLimit _ => exact ok_tuple rfl (okI_cons (Tells.ok h _) okI_nil)
    | ReadMaxLimit _ => exact ok_tuple rfl (okI_cons (Tells.ok h _) okI_nil)
  inj h a b e := by
    cases a with
    | ReadFlagByte _ =>
      cases b with
      | ReadFlagByte _ => exact congrArg ParseLimitsError.ReadFlagByte (Tells.inj h (tuple1 e))
      | _ => exact noWay e rfl
    | UnexpectedFlagByte _ =>
      cases b with
      | UnexpectedFlagByte _ => exact congrArg ParseLimitsError.UnexpectedFlagByte (Tells.inj h (tuple1 e))
      | _ => exact noWay e rfl
    | ReadMinLimit _ =>
      cases b with
      | ReadMinLimit _ => exact congrArg ParseLimitsError.ReadMinLimit (Tells.inj h (tuple1 e))
      | _ => exact noWay e rfl
    | ReadMaxLimit _ =>
      cases b with
      | ReadMaxLimit _ => exact congrArg ParseLimitsError.ReadMaxLimit (Tells.inj h (tuple1 e))
      | _ => exact noWay e rfl

instance : Tells DecodeTableTypeError where
  ok h a := by
    cases a with
    | DecodeRefType _ => exact ok_tuple rfl (okI_cons (Tells.ok h _) okI_nil)
    | DecodeLimits _ => exact ok_tuple rfl (okI_cons (Tells.ok h _) okI_nil)
  inj h a b e := by
    cases a with
    | DecodeRefType _ =>
      cases b with
      | DecodeRefType _ => exact congrArg DecodeTableTypeError.DecodeRefType (Tells.inj h (tuple1 e))
      | _ => exact noWay e rfl
    | DecodeLimits _ =>
      cases b with
      | DecodeLimits _ => exact congrArg DecodeTableTypeError.DecodeLimits (Tells.inj h (tuple1 e))
      | _ => exact noWay e rfl

instance : WordName DecodeMemoryTypeError := ⟨rfl⟩

instance : Tells DecodeMemoryTypeError where
  ok h a := by
    cases a with
    | mk _ => exact ok_tuple rfl (okI_cons (Tells.ok h _) okI_nil)
  inj h a b e := by
    cases a with
    | mk _ => cases b with
      | mk _ => exact congrArg DecodeMemoryTypeError.mk (Tells.inj h (tuple1 e))

instance : Tells DecodeGlobalTypeError where
  ok h a := by
    cases a with
    | DecodeValueType _ => exact ok_tuple rfl (okI_cons (Tells.ok h _) okI_nil)
    | DecodeMutability _ => exact ok_tuple rfl (okI_cons (Tells.ok h _) okI_nil)
    | InvalidMutability _ => exact ok_tuple rfl (okI_cons (Tells.ok h _) okI_nil)
  inj h a b e := by
    cases a with
    | DecodeValueType _ =>
      cases b with
      | DecodeValueType _ => exact congrArg DecodeGlobalTypeError.DecodeValueType (Tells.inj h (tuple1 e))
      | _ => exact noWay e rfl
    | DecodeMutability _ =>
      cases b with
      | DecodeMutability _ => exact congrArg DecodeGlobalTypeError.DecodeMutability (Tells.inj h (tuple1 e))
      | _ => exact noWay e rfl
    | InvalidMutability _ =>
      cases b with
      | InvalidMutability _ => exact congrArg DecodeGlobalTypeError.InvalidMutability (Tells.inj h (tuple1 e))
      | _ => exact noWay e rfl

instance : WordName DecodeTagTypeError := ⟨rfl⟩

instance : Tells DecodeTagTypeError where
  ok h a := by
    cases a with
    | ReadMarkerByte _ => exact ok_tuple rfl (okI_cons (Tells.ok h _) okI_nil)
    | InvalidMarkerByte _ => exact ok_tuple rfl (okI_cons (Tells.ok h _) okI_nil)
    | DecodeTypeIndex _ => exact ok_tuple rfl (okI_cons (Tells.ok h _) okI_nil)
  inj h a b e := by
    cases a with
    | ReadMarkerByte _ =>
      cases b with
      | ReadMarkerByte _ => exact congrArg DecodeTagTypeError.ReadMarkerByte (Tells.inj h (tuple1 e))
      | _ => exact noWay e rfl
    | InvalidMarkerByte _ =>
      cases b with
      | InvalidMarkerByte _ => exact congrArg DecodeTagTypeError.InvalidMarkerByte (Tells.inj h (tuple1 e))
      | _ => exact noWay e rfl
    | DecodeTypeIndex _ =>
      cases b with
      | DecodeTypeIndex _ => exact congrArg DecodeTagTypeError.DecodeTypeIndex (Tells.inj h (tuple1 e))
      | _ => exact noWay e rfl

instance : Tells DecodeExternTypeError where
  ok h a := by
    cases a with
    | ReadMarkerByte _ => exact ok_tuple rfl (okI_cons (Tells.ok h _) okI_nil)
    | InvalidMarkerByte _ => exact ok_tuple rfl (okI_cons (Tells.ok h _) okI_nil)
    | DecodeTypeIndex _ => exact ok_tuple rfl (okI_cons (Tells.ok h _) okI_nil)
    | DecodeTableType _ => exact ok_tuple rfl (okI_cons (Tells.ok h _) okI_nil)
    | DecodeMemoryType _ => exact ok_tuple rfl (okI_cons (Tells.ok h _) okI_nil)
    | DecodeGlobalType _ => exact ok_tuple rfl (okI_cons (Tells.ok h _) okI_nil)
    | DecodeTagType _ => exact ok_tuple rfl (okI_cons (Tells.ok h _) okI_nil)
  inj h a b e := by
    cases a with
    | ReadMarkerByte _ =>
      cases b with
      | ReadMarkerByte _ => exact congrArg DecodeExternTypeError.ReadMarkerByte (Tells.inj h (tuple1 e))
      | _ => exact noWay e rfl
    | InvalidMarkerByte _ =>
      cases b with
      | InvalidMarkerByte _ => exact congrArg DecodeExternTypeError.InvalidMarkerByte (Tells.inj h (tuple1 e))
      | _ => exact noWay e rfl
    | DecodeTypeIndex _ =>
      cases b with
      | DecodeTypeIndex _ => exact congrArg DecodeExternTypeError.DecodeTypeIndex (Tells.inj h (tuple1 e))
      | _ => exact noWay e rfl
    | DecodeTableType _ =>
      cases b with
      | DecodeTableType _ => exact congrArg DecodeExternTypeError.DecodeTableType (Tells.inj h (tuple1 e))
      | _ => exact noWay e rfl
    | DecodeMemoryType _ =>
      cases b with
      | DecodeMemoryType _ => exact congrArg DecodeExternTypeError.DecodeMemoryType (Tells.inj h (tuple1 e))
      | _ => exact noWay e rfl
    | DecodeGlobalType _ =>
      cases b with
      | DecodeGlobalType _ => exact congrArg DecodeExternTypeError.DecodeGlobalType (Tells.inj h (tuple1 e))
      | _ => exact noWay e rfl
    | DecodeTagType _ =>
      cases b with
      | DecodeTagType _ => exact congrArg DecodeExternTypeError.DecodeTagType (Tells.inj h (tuple1 e))
      | _ => exact noWay e rfl

instance : WordName DecodeSubTypeError := ⟨rfl⟩

instance : Tells DecodeSubTypeError where
  ok h a := by
    cases a with
    | Io _ => exact ok_tuple rfl (okI_cons (Tells.ok h _) okI_nil)
    | DecodeSupertypes _ => exact ok_tuple rfl (okI_cons (Tells.ok h _) okI_nil)
    | DecodeCompType _ => exact ok_tuple rfl (okI_cons (Tells.ok h _) okI_nil)
  inj h a b e := by
    cases a with
    | Io _ =>
      cases b with
      | Io _ => exact congrArg DecodeSubTypeError.Io (Tells.inj h (tuple1 e))
      | _ => exact noWay e rfl
    | DecodeSupertypes _ =>
      cases b with
      | DecodeSupertypes _ => exact congrArg DecodeSubTypeError.DecodeSupertypes (Tells.inj h (tuple1 e))
      | _ => exact noWay e rfl
    | DecodeCompType _ =>
      cases b with
      | DecodeCompType _ => exact congrArg DecodeSubTypeError.DecodeCompType (Tells.inj h (tuple1 e))
      | _ => exact noWay e rfl

instance : WordName DecodeRecTypeError := ⟨rfl⟩

instance : Tells DecodeRecTypeError where
  ok h a := by
    cases a with
    | Io _ => exact ok_tuple rfl (okI_cons (Tells.ok h _) okI_nil)
    | DecodeSubtypes _ => exact ok_tuple rfl (okI_cons (Tells.ok h _) okI_nil)
    | DecodeSubtype _ => exact ok_tuple rfl (okI_cons (Tells.ok h _) okI_nil)
  inj h a b e := by
    cases a with
    | Io _ =>
      cases b with
      | Io _ => exact congrArg DecodeRecTypeError.Io (Tells.inj h (tuple1 e))
      | _ => exact noWay e rfl
    | DecodeSubtypes _ =>
      cases b with
      | DecodeSubtypes _ => exact congrArg DecodeRecTypeError.DecodeSubtypes (Tells.inj h (tuple1 e))
      | _ => exact noWay e rfl
    | DecodeSubtype _ =>
      cases b with
      | DecodeSubtype _ => exact congrArg DecodeRecTypeError.DecodeSubtype (Tells.inj h (tuple1 e))
      | _ => exact noWay e rfl

instance : WordName DecodeCodeLocalsError := ⟨rfl⟩

instance : Tells DecodeCodeLocalsError where
  ok h a := by
    cases a with
    | DecodeLocalsCount _ => exact ok_tuple rfl (okI_cons (Tells.ok h _) okI_nil)
    | LocalsCountOutOfBound _ _ => exact ok_struct rfl (okF_cons rfl (Tells.ok h _) (okF_cons rfl (Tells.ok h _) okF_nil))
    | DecodeLocalValType _ => exact ok_tuple rfl (okI_cons (Tells.ok h _) okI_nil)
  inj h a b e := by
    cases a with
    | DecodeLocalsCount _ =>
      cases b with
      | DecodeLocalsCount _ => exact congrArg DecodeCodeLocalsError.DecodeLocalsCount (Tells.inj h (tuple1 e))
      | _ => exact noWay e rfl
    | LocalsCountOutOfBound _ _ =>
      cases b with
      | LocalsCountOutOfBound _ _ =>
        obtain ⟨p, q⟩ := struct2 e
        cases Tells.inj h p; cases Tells.inj h q; rfl
      | _ => exact noWay e rfl
    | DecodeLocalValType _ =>
      cases b with
      | DecodeLocalValType _ => exact congrArg DecodeCodeLocalsError.DecodeLocalValType (Tells.inj h (tuple1 e))
      | _ => exact noWay e rfl

instance : WordName DecodeCodeError := ⟨rfl⟩

instance : Tells DecodeCodeError where
  ok h a := by
    cases a with
    | DecodeFunctionSize _ => exact ok_tuple rfl (okI_cons (Tells.ok h _) okI_nil)
    | DecodeLocalsVector _ => exact ok_tuple rfl (okI_cons (Tells.ok h _) okI_nil)
    | DecodeFunctionBody _ => exact ok_tuple rfl (okI_cons (Tells.ok h _) okI_nil)
    | EntrySizeMismatch _ _ _ => exact ok_struct rfl (okF_cons rfl (Tells.ok h _) (okF_cons rfl (Tells.ok h _) (okF_cons rfl (Tells.ok h _) okF_nil)))
  inj h a b e := by
    cases a with
    | DecodeFunctionSize _ =>
      cases b with
      | DecodeFunctionSize _ => exact congrArg DecodeCodeError.DecodeFunctionSize (Tells.inj h (tuple1 e))
      | _ => exact noWay e rfl
    | DecodeLocalsVector _ =>
      cases b with
      | DecodeLocalsVector _ => exact congrArg DecodeCodeError.DecodeLocalsVector (Tells.inj h (tuple1 e))
      | _ => exact noWay e rfl
    | DecodeFunctionBody _ =>
      cases b with
      | DecodeFunctionBody _ => exact congrArg DecodeCodeError.DecodeFunctionBody (Tells.inj h (tuple1 e))
      | _ => exact noWay e rfl
    | EntrySizeMismatch _ _ _ =>
      cases b with
      | EntrySizeMismatch _ _ _ =>
        obtain ⟨p, q, r⟩ := struct3 e
        cases Tells.inj h p; cases Tells.inj h q; cases Tells.inj h r; rfl
      | _ => exact noWay e rfl

instance : Tells DecodeCodeSectionError where
  ok h a := by
    cases a with
    | DecodeList _ => exact ok_tuple rfl (okI_cons (Tells.ok h _) okI_nil)
  inj h a b e := by
    cases a with
    | DecodeList _ => cases b with
      | DecodeList _ => exact congrArg DecodeCodeSectionError.DecodeList (Tells.inj h (tuple1 e))

instance : Tells DecodeCustomSectionError where
  ok h a := by
    cases a with
    | DecodeName _ => exact ok_tuple rfl (okI_cons (Tells.ok h _) okI_nil)
    | Io _ => exact ok_tuple rfl (okI_cons (Tells.ok h _) okI_nil)
  inj h a b e := by
    cases a with
    | DecodeName _ =>
      cases b with
      | DecodeName _ => exact congrArg DecodeCustomSectionError.DecodeName (Tells.inj h (tuple1 e))
      | _ => exact noWay e rfl
    | Io _ =>
      cases b with
      | Io _ => exact congrArg DecodeCustomSectionError.Io (Tells.inj h (tuple1 e))
      | _ => exact noWay e rfl

instance : WordName DecodeDataSegmentError := ⟨rfl⟩

instance : Tells DecodeDataSegmentError where
  ok h a := by
    cases a with
    | DecodeBitfield _ => exact ok_tuple rfl (okI_cons (Tells.ok h _) okI_nil)
    | InvalidBitfield _ => exact ok_tuple rfl (okI_cons (Tells.ok h _) okI_nil)
    | DecodeOffsetExpr _ => exact ok_tuple rfl (okI_cons (Tells.ok h _) okI_nil)
    | DecodeInitVector _ => exact ok_tuple rfl (okI_cons (Tells.ok h _) okI_nil)
    | DecodeMemIdx _ => exact ok_tuple rfl (okI_cons (Tells.ok h _) okI_nil)
  inj h a b e := by
    cases a with
    | DecodeBitfield _ =>
      cases b with
      | DecodeBitfield _ => exact congrArg DecodeDataSegmentError.DecodeBitfield (Tells.inj h (tuple1 e))
      | _ => exact noWay e rfl
    | InvalidBitfield _ =>
      cases b with
      | InvalidBitfield _ => exact congrArg DecodeDataSegmentError.InvalidBitfield (Tells.inj h (tuple1 e))
      | _ => exact noWay e rfl
    | DecodeOffsetExpr _ =>
      cases b with
      | DecodeOffsetExpr _ => exact congrArg DecodeDataSegmentError.DecodeOffsetExpr (Tells.inj h (tuple1 e))
      | _ => exact noWay e rfl
    | DecodeInitVector _ =>
      cases b with
      | DecodeInitVector _ => exact congrArg DecodeDataSegmentError.DecodeInitVector (Tells.inj h (tuple1 e))
      | _ => exact noWay e rfl
    | DecodeMemIdx _ =>
      cases b with
      | DecodeMemIdx _ => exact congrArg DecodeDataSegmentError.DecodeMemIdx (Tells.inj h (tuple1 e))
      | _ => exact noWay e rfl

instance : Tells DecodeDataSectionError where
  ok h a := by
    cases a with
    | DecodeList _ => exact ok_tuple rfl (okI_cons (Tells.ok h _) okI_nil)
  inj h a b e := by
    cases a with
    | DecodeList _ => cases b with
      | DecodeList _ => exact congrArg DecodeDataSectionError.DecodeList (Tells.inj h (tuple1 e))

instance : Tells DecodeDataCountSectionError where
  ok h a := by
    cases a with
    | DecodeDataSegmentCount _ => exact ok_tuple rfl (okI_cons (Tells.ok h _) okI_nil)
  inj h a b e := by
    cases a with
    | DecodeDataSegmentCount _ => cases b with
      | DecodeDataSegmentCount _ => exact congrArg DecodeDataCountSectionError.DecodeDataSegmentCount (Tells.inj h (tuple1 e))

instance : Tells DecodeElementKindError where
  ok h a := by
    cases a with
    | Io _ => exact ok_tuple rfl (okI_cons (Tells.ok h _) okI_nil)
    | InvalidElemKind _ => exact ok_tuple rfl (okI_cons (Tells.ok h _) okI_nil)
  inj h a b e := by
    cases a with
    | Io _ =>
      cases b with
      | Io _ => exact congrArg DecodeElementKindError.Io (Tells.inj h (tuple1 e))
      | _ => exact noWay e rfl
    | InvalidElemKind _ =>
      cases b with
      | InvalidElemKind _ => exact congrArg DecodeElementKindError.InvalidElemKind (Tells.inj h (tuple1 e))
      | _ => exact noWay e rfl

instance : WordName DecodeElementError := ⟨rfl⟩

instance : Tells DecodeElementError where
  ok h a := by
    cases a with
    | DecodeBitfield _ => exact ok_tuple rfl (okI_cons (Tells.ok h _) okI_nil)
    | InvalidBitfield _ => exact ok_tuple rfl (okI_cons (Tells.ok h _) okI_nil)
    | DecodeOffsetExpression _ => exact ok_tuple rfl (okI_cons (Tells.ok h _) okI_nil)
    | DecodeElementKind _ => exact ok_tuple rfl (okI_cons (Tells.ok h _) okI_nil)
    | DecodeElementExpression _ => exact ok_tuple rfl (okI_cons (Tells.ok h _) okI_nil)
    | DecodeTableIdx _ => exact ok_tuple rfl (okI_cons (Tells.ok h _) okI_nil)
    | DecodeReferenceType _ => exact ok_tuple rfl (okI_cons (Tells.ok h _) okI_nil)
    | DecodeInit _ => exact ok_tuple rfl (okI_cons (Tells.ok h _) okI_nil)
    | DecodeFuncIdxVector _ => exact ok_tuple rfl (okI_cons (Tells.ok h _) okI_nil)
  inj h a b e := by
    cases a with
    | DecodeBitfield _ =>
      cases b with
      | DecodeBitfield _ => exact congrArg DecodeElementError.DecodeBitfield (Tells.inj h (tuple1 e))
      | _ => exact noWay e rfl
    | InvalidBitfield _ =>
      cases b with
      | InvalidBitfield _ => exact congrArg DecodeElementError.InvalidBitfield (Tells.inj h (tuple1 e))
      | _ => exact noWay e rfl
    | DecodeOffsetExpression _ =>
      cases b with
      | DecodeOffsetExpression _ => exact congrArg DecodeElementError.DecodeOffsetExpression (Tells.inj h (tuple1 e))
      | _ => exact noWay e rfl
    | DecodeElementKind _ =>
      cases b with
      | DecodeElementKind _ => exact congrArg DecodeElementError.DecodeElementKind (Tells.inj h (tuple1 e))
      | _ => exact noWay e rfl
    | DecodeElementExpression _ =>
      cases b with
      | DecodeElementExpression _ => exact congrArg DecodeElementError.DecodeElementExpression (Tells.inj h (tuple1 e))
      | _ => exact noWay e rfl
    | DecodeTableIdx _ =>
      cases b with
      | DecodeTableIdx _ => exact congrArg DecodeElementError.DecodeTableIdx (Tells.inj h (tuple1 e))
      | _ => exact noWay e rfl
    | DecodeReferenceType _ =>
      cases b with
      | DecodeReferenceType _ => exact congrArg DecodeElementError.DecodeReferenceType (Tells.inj h (tuple1 e))
      | _ => exact noWay e rfl
    | DecodeInit _ =>
      cases b with
      | DecodeInit _ => exact congrArg DecodeElementError.DecodeInit (Tells.inj h (tuple1 e))
      | _ => exact noWay e rfl
    | DecodeFuncIdxVector _ =>
      cases b with
      | DecodeFuncIdxVector _ => exact congrArg DecodeElementError.DecodeFuncIdxVector (Tells.inj h (tuple1 e))
      | _ => exact noWay e rfl

instance : Tells DecodeElementSectionError where
  ok h a := by
    cases a with
    | DecodeList _ => exact ok_tuple rfl (okI_cons (Tells.ok h _) okI_nil)
  inj h a b e := by
    cases a with
    | DecodeList _ => cases b with
      | DecodeList _ => exact congrArg DecodeElementSectionError.DecodeList (Tells.inj h (tuple1 e))

instance : Tells InvalidExportDescMarkerByte where
  ok h a := by
    cases a with
    | mk _ => exact ok_tuple rfl (okI_cons (Tells.ok h _) okI_nil)
  inj h a b e := by
    cases a with
    | mk _ => cases b with
      | mk _ => exact congrArg InvalidExportDescMarkerByte.mk (Tells.inj h (tuple1 e))

instance : WordName DecodeExportError := ⟨rfl⟩

instance : Tells DecodeExportError where
  ok h a := by
    cases a with
    | DecodeName _ => exact ok_tuple rfl (okI_cons (Tells.ok h _) okI_nil)
    | ReadDescriptorMarkerByte _ => exact ok_tuple rfl (okI_cons (Tells.ok h _) okI_nil)
    | DecodeIndex _ => exact ok_tuple rfl (okI_cons (Tells.ok h _) okI_nil)
    | InvalidDescriptorMarkerByte _ => exact ok_tuple rfl (okI_cons (Tells.ok h _) okI_nil)
  inj h a b e := by
    cases a with
    | DecodeName _ =>
      cases b with
      | DecodeName _ => exact congrArg DecodeExportError.DecodeName (Tells.inj h (tuple1 e))
      | _ => exact noWay e rfl
    | ReadDescriptorMarkerByte _ =>
      cases b with
      | ReadDescriptorMarkerByte _ => exact congrArg DecodeExportError.ReadDescriptorMarkerByte (Tells.inj h (tuple1 e))
      | _ => exact noWay e rfl
    | DecodeIndex _ =>
      cases b with
      | DecodeIndex _ => exact congrArg DecodeExportError.DecodeIndex (Tells.inj h (tuple1 e))
      | _ => exact noWay e rfl
    | InvalidDescriptorMarkerByte _ =>
      cases b with
      | InvalidDescriptorMarkerByte _ => exact congrArg DecodeExportError.InvalidDescriptorMarkerByte (Tells.inj h (tuple1 e))
      | _ => exact noWay e rfl

instance : Tells DecodeExportSectionError where
  ok h a := by
    cases a with
    | DecodeList _ => exact ok_tuple rfl (okI_cons (Tells.ok h _) okI_nil)
  inj h a b e := by
    cases a with
    | DecodeList _ => cases b with
      | DecodeList _ => exact congrArg DecodeExportSectionError.DecodeList (Tells.inj h (tuple1 e))

instance : Tells DecodeFunctionSectionError where
  ok h a := by
    cases a with
    | DecodeList _ => exact ok_tuple rfl (okI_cons (Tells.ok h _) okI_nil)
  inj h a b e := by
    cases a with
    | DecodeList _ => cases b with
      | DecodeList _ => exact congrArg DecodeFunctionSectionError.DecodeList (Tells.inj h (tuple1 e))

instance : WordName DecodeGlobalError := ⟨rfl⟩

instance : Tells DecodeGlobalError where
  ok h a := by
    cases a with
    | DecodeGlobalType _ => exact ok_tuple rfl (okI_cons (Tells.ok h _) okI_nil)
    | DecodeInit _ => exact ok_tuple rfl (okI_cons (Tells.ok h _) okI_nil)
  inj h a b e := by
    cases a with
    | DecodeGlobalType _ =>
      cases b with
      | DecodeGlobalType _ => exact congrArg DecodeGlobalError.DecodeGlobalType (Tells.inj h (tuple1 e))
      | _ => exact noWay e rfl
    | DecodeInit _ =>
      cases b with
      | DecodeInit _ => exact congrArg DecodeGlobalError.DecodeInit (Tells.inj h (tuple1 e))
      | _ => exact noWay e rfl

instance : Tells DecodeGlobalSectionError where
  ok h a := by
    cases a with
    | DecodeList _ => exact ok_tuple rfl (okI_cons (Tells.ok h _) okI_nil)
  inj h a b e := by
    cases a with
    | DecodeList _ => cases b with
      | DecodeList _ => exact congrArg DecodeGlobalSectionError.DecodeList (Tells.inj h (tuple1 e))

instance : WordName DecodeImportError := ⟨rfl⟩

instance : Tells DecodeImportError where
  ok h a := by
    cases a with
    | DecodeModuleName _ => exact ok_tuple rfl (okI_cons (Tells.ok h _) okI_nil)
    | DecodeItemName _ => exact ok_tuple rfl (okI_cons (Tells.ok h _) okI_nil)
    | DecodeExternType _ => exact ok_tuple rfl (okI_cons (Tells.ok h _) okI_nil)
  inj h a b e := by
    cases a with
    | DecodeModuleName _ =>
      cases b with
      | DecodeModuleName _ => exact congrArg DecodeImportError.DecodeModuleName (Tells.inj h (tuple1 e))
      | _ => exact noWay e rfl
    | DecodeItemName _ =>
      cases b with
      | DecodeItemName _ => exact congrArg DecodeImportError.DecodeItemName (Tells.inj h (tuple1 e))
      | _ => exact noWay e rfl
    | DecodeExternType _ =>
      cases b with
      | DecodeExternType _ => exact congrArg DecodeImportError.DecodeExternType (Tells.inj h (tuple1 e))
      | _ => exact noWay e rfl

instance : Tells DecodeImportSectionError where
  ok h a := by
    cases a with
    | DecodeList _ => exact ok_tuple rfl (okI_cons (Tells.ok h _) okI_nil)
  inj h a b e := by
    cases a with
    | DecodeList _ => cases b with
      | DecodeList _ => exact congrArg DecodeImportSectionError.DecodeList (Tells.inj h (tuple1 e))

instance : Tells DecodeMemorySectionError where
  ok h a := by
    cases a with
    | DecodeList _ => exact ok_tuple rfl (okI_cons (Tells.ok h _) okI_nil)
  inj h a b e := by
    cases a with
    | DecodeList _ => cases b with
      | DecodeList _ => exact congrArg DecodeMemorySectionError.DecodeList (Tells.inj h (tuple1 e))

instance : Tells DecodeStartSectionError where
  ok h a := by
    cases a with
    | mk _ => exact ok_tuple rfl (okI_cons (Tells.ok h _) okI_nil)
  inj h a b e := by
    cases a with
    | mk _ => cases b with
      | mk _ => exact congrArg DecodeStartSectionError.mk (Tells.inj h (tuple1 e))

instance : WordName DecodeTableError := ⟨rfl⟩

instance : Tells DecodeTableError where
  ok h a := by
    cases a with
    | Io _ => exact ok_tuple rfl (okI_cons (Tells.ok h _) okI_nil)
    | UnexpectedMarkerByte _ => exact ok_tuple rfl (okI_cons (Tells.ok h _) okI_nil)
    | DecodeTableType _ => exact ok_tuple rfl (okI_cons (Tells.ok h _) okI_nil)
    | DecodeExpression _ => exact ok_tuple rfl (okI_cons (Tells.ok h _) okI_nil)
  inj h a b e := by
    cases a with
    | Io _ =>
      cases b with
      | Io _ => exact congrArg DecodeTableError.Io (Tells.inj h (tuple1 e))
      | _ => exact noWay e rfl
    | UnexpectedMarkerByte _ =>
      cases b with
      | UnexpectedMarkerByte _ => exact congrArg DecodeTableError.UnexpectedMarkerByte (Tells.inj h (tuple1 e))
      | _ => exact noWay e rfl
    | DecodeTableType _ =>
      cases b with
      | DecodeTableType _ => exact congrArg DecodeTableError.DecodeTableType (Tells.inj h (tuple1 e))
      | _ => exact noWay e rfl
    | DecodeExpression _ =>
      cases b with
      | DecodeExpression _ => exact congrArg DecodeTableError.DecodeExpression (Tells.inj h (tuple1 e))
      | _ => exact noWay e rfl

instance : Tells DecodeTableSectionError where
  ok h a := by
    cases a with
    | DecodeList _ => exact ok_tuple rfl (okI_cons (Tells.ok h _) okI_nil)
  inj h a b e := by
    cases a with
    | DecodeList _ => cases b with
      | DecodeList _ => exact congrArg DecodeTableSectionError.DecodeList (Tells.inj h (tuple1 e))

instance : Tells DecodeTagSectionError where
  ok h a := by
    cases a with
    | DecodeList _ => exact ok_tuple rfl (okI_cons (Tells.ok h _) okI_nil)
  inj h a b e := by
    cases a with
    | DecodeList _ => cases b with
      | DecodeList _ => exact congrArg DecodeTagSectionError.DecodeList (Tells.inj h (tuple1 e))

instance : Tells DecodeTypeSectionError where
  ok h a := by
    cases a with
    | DecodeList _ => exact ok_tuple rfl (okI_cons (Tells.ok h _) okI_nil)
  inj h a b e := by
    cases a with
    | DecodeList _ => cases b with
      | DecodeList _ => exact congrArg DecodeTypeSectionError.DecodeList (Tells.inj h (tuple1 e))

instance : Tells InvalidSectionIdError where
  ok h a := by
    cases a with
    | mk _ => exact ok_tuple rfl (okI_cons (Tells.ok h _) okI_nil)
  inj h a b e := by
    cases a with
    | mk _ => cases b with
      | mk _ => exact congrArg InvalidSectionIdError.mk (Tells.inj h (tuple1 e))

instance : Tells ParsePreambleError where
  ok h a := by
    cases a with
    | Io _ => exact ok_tuple rfl (okI_cons (Tells.ok h _) okI_nil)
    | Unexpected _ => exact ok_tuple rfl (okI_cons (Tells.ok h _) okI_nil)
  inj h a b e := by
    cases a with
    | Io _ =>
      cases b with
      | Io _ => exact congrArg ParsePreambleError.Io (Tells.inj h (tuple1 e))
      | _ => exact noWay e rfl
    | Unexpected _ =>
      cases b with
      | Unexpected _ => exact congrArg ParsePreambleError.Unexpected (Tells.inj h (tuple1 e))
      | _ => exact noWay e rfl

instance : Tells DecodeSectionHeaderError where
  ok h a := by
    cases a with
    | ReadSectionIdByte _ => exact ok_tuple rfl (okI_cons (Tells.ok h _) okI_nil)
    | InvalidSectionId _ => exact ok_tuple rfl (okI_cons (Tells.ok h _) okI_nil)
    | DecodeSectionSize _ => exact ok_tuple rfl (okI_cons (Tells.ok h _) okI_nil)
  inj h a b e := by
    cases a with
    | ReadSectionIdByte _ =>
      cases b with
      | ReadSectionIdByte _ => exact congrArg DecodeSectionHeaderError.ReadSectionIdByte (Tells.inj h (tuple1 e))
      | _ => exact noWay e rfl
    | InvalidSectionId _ =>
      cases b with
      | InvalidSectionId _ => exact congrArg DecodeSectionHeaderError.InvalidSectionId (Tells.inj h (tuple1 e))
      | _ => exact noWay e rfl
    | DecodeSectionSize _ =>
      cases b with
      | DecodeSectionSize _ => exact congrArg DecodeSectionHeaderError.DecodeSectionSize (Tells.inj h (tuple1 e))
      | _ => exact noWay e rfl

instance : Tells DecodeModuleError where
  ok h a := by
    cases a with
    | ParsePreamble _ => exact ok_tuple rfl (okI_cons (Tells.ok h _) okI_nil)
    | CodeFuncEntriesLenMismatch _ _ => exact ok_struct rfl (okF_cons rfl (Tells.ok h _) (okF_cons rfl (Tells.ok h _) okF_nil))
    | DataCountMismatch _ _ => exact ok_struct rfl (okF_cons rfl (Tells.ok h _) (okF_cons rfl (Tells.ok h _) okF_nil))
    | SectionOutOfOrder _ _ => exact ok_struct rfl (okF_cons rfl (Tells.ok h _) (okF_cons rfl (Tells.ok h _) okF_nil))
    | DuplicateSection _ => exact ok_tuple rfl (okI_cons (Tells.ok h _) okI_nil)
    | SectionSizeMismatch _ _ _ => exact ok_struct rfl (okF_cons rfl (Tells.ok h _) (okF_cons rfl (Tells.ok h _) (okF_cons rfl (Tells.ok h _) okF_nil)))
    | DataCountDatasLenMismatch _ _ => exact ok_struct rfl (okF_cons rfl (Tells.ok h _) (okF_cons rfl (Tells.ok h _) okF_nil))
    | DecodeDataCount => exact ok_tuple rfl (okI_cons (ok_tuple rfl (okI_cons (by simp only [Dbg.Ok]) okI_nil)) okI_nil)
    | DataIndexWithoutDataCount => exact ok_word rfl
    | DecodeSectionHeader _ => exact ok_tuple rfl (okI_cons (Tells.ok h _) okI_nil)
    | DecodeCustomSection _ => exact ok_tuple rfl (okI_cons (Tells.ok h _) okI_nil)
    | DecodeTypeSection _ => exact ok_tuple rfl (okI_cons (Tells.ok h _) okI_nil)
    | DecodeImportSection _ => exact ok_tuple rfl (okI_cons (Tells.ok h _) okI_nil)
    | DecodeFunctionSection _ => exact ok_tuple rfl (okI_cons (Tells.ok h _) okI_nil)
    | DecodeTableSection _ => exact ok_tuple rfl (okI_cons (Tells.ok h _) okI_nil)
    | DecodeMemorySection _ => exact ok_tuple rfl (okI_cons (Tells.ok h _) okI_nil)
    | DecodeGlobalSection _ => exact ok_tuple rfl (okI_cons (Tells.ok h _) okI_nil)
    | DecodeExportSection _ => exact ok_tuple rfl (okI_cons (Tells.ok h _) okI_nil)
    | DecodeStartSection _ => exact ok_tuple rfl (okI_cons (Tells.ok h _) okI_nil)
    | DecodeElementSection _ => exact ok_tuple rfl (okI_cons (Tells.ok h _) okI_nil)
    | DecodeDatacountSection _ => exact ok_tuple rfl (okI_cons (Tells.ok h _) okI_nil)
    | DecodeCodeSection _ => exact ok_tuple rfl (okI_cons (Tells.ok h _) okI_nil)
    | DecodeDataSection _ => exact ok_tuple rfl (okI_cons (Tells.ok h _) okI_nil)
    | DecodeTagSection _ => exact ok_tuple rfl (okI_cons (Tells.ok h _) okI_nil)
  inj h a b e := by
    cases a with
    | ParsePreamble _ =>
      cases b with
      | ParsePreamble _ => exact congrArg DecodeModuleError.ParsePreamble (Tells.inj h (tuple1 e))
      | _ => exact noWay e rfl
    | CodeFuncEntriesLenMismatch _ _ =>
      cases b with
      | CodeFuncEntriesLenMismatch _ _ =>
        obtain ⟨p, q⟩ := struct2 e
        cases Tells.inj h p; cases Tells.inj h q; rfl
      | _ => exact noWay e rfl
    | DataCountMismatch _ _ =>
      cases b with
      | DataCountMismatch _ _ =>
        obtain ⟨p, q⟩ := struct2 e
        cases Tells.inj h p; cases Tells.inj h q; rfl
      | _ => exact noWay e rfl
    | SectionOutOfOrder _ _ =>
      cases b with
      | SectionOutOfOrder _ _ =>
        obtain ⟨p, q⟩ := struct2 e
        cases Tells.inj h p; cases Tells.inj h q; rfl
      | _ => exact noWay e rfl
    | DuplicateSection _ =>
      cases b with
      | DuplicateSection _ => exact congrArg DecodeModuleError.DuplicateSection (Tells.inj h (tuple1 e))
      | _ => exact noWay e rfl
    | SectionSizeMismatch _ _ _ =>
      cases b with
      | SectionSizeMismatch _ _ _ =>
        obtain ⟨p, q, r⟩ := struct3 e
        cases Tells.inj h p; cases Tells.inj h q; cases Tells.inj h r; rfl
      | _ => exact noWay e rfl
    | DataCountDatasLenMismatch _ _ =>
      cases b with
      | DataCountDatasLenMismatch _ _ =>
        obtain ⟨p, q⟩ := struct2 e
        cases Tells.inj h p; cases Tells.inj h q; rfl
      | _ => exact noWay e rfl
    | DecodeDataCount =>
      cases b with
      | DecodeDataCount => rfl
      | _ => exact noWay e rfl
    | DataIndexWithoutDataCount =>
      cases b with
      | DataIndexWithoutDataCount => rfl
      | _ => exact noWay e rfl
    | DecodeSectionHeader _ =>
      cases b with
      | DecodeSectionHeader _ => exact congrArg DecodeModuleError.DecodeSectionHeader (Tells.inj h (tuple1 e))
      | _ => exact noWay e rfl
    | DecodeCustomSection _ =>
      cases b with
      | DecodeCustomSection _ => exact congrArg DecodeModuleError.DecodeCustomSection (Tells.inj h (tuple1 e))
      | _ => exact noWay e rfl
    | DecodeTypeSection _ =>
      cases b with
      | DecodeTypeSection _ => exact congrArg DecodeModuleError.DecodeTypeSection (Tells.inj h (tuple1 e))
      | _ => exact noWay e rfl
    | DecodeImportSection _ =>
      cases b with
      | DecodeImportSection _ => exact congrArg DecodeModuleError.DecodeImportSection (Tells.inj h (tuple1 e))
      | _ => exact noWay e rfl
    | DecodeFunctionSection _ =>
      cases b with
      | DecodeFunctionSection _ => exact congrArg DecodeModuleError.DecodeFunctionSection (Tells.inj h (tuple1 e))
      | _ => exact noWay e rfl
    | DecodeTableSection _ =>
      cases b with
      | DecodeTableSection _ => exact congrArg DecodeModuleError.DecodeTableSection (Tells.inj h (tuple1 e))
      | _ => exact noWay e rfl
    | DecodeMemorySection _ =>
      cases b with
      | DecodeMemorySection _ => exact congrArg DecodeModuleError.DecodeMemorySection (Tells.inj h (tuple1 e))
      | _ => exact noWay e rfl
    | DecodeGlobalSection _ =>
      cases b with
      | DecodeGlobalSection _ => exact congrArg DecodeModuleError.DecodeGlobalSection (Tells.inj h (tuple1 e))
      | _ => exact noWay e rfl
    | DecodeExportSection _ =>
      cases b with
      | DecodeExportSection _ => exact congrArg DecodeModuleError.DecodeExportSection (Tells.inj h (tuple1 e))
      | _ => exact noWay e rfl
    | DecodeStartSection _ =>
      cases b with
      | DecodeStartSection _ => exact congrArg DecodeModuleError.DecodeStartSection (Tells.inj h (tuple1 e))
      | _ => exact noWay e rfl
    | DecodeElementSection _ =>
      cases b with
      | DecodeElementSection _ => exact congrArg DecodeModuleError.DecodeElementSection (Tells.inj h (tuple1 e))
      | _ => exact noWay e rfl
    | DecodeDatacountSection _ =>
      cases b with
      | DecodeDatacountSection _ => exact congrArg DecodeModuleError.DecodeDatacountSection (Tells.inj h (tuple1 e))
      | _ => exact noWay e rfl
    | DecodeCodeSection _ =>
      cases b with
      | DecodeCodeSection _ => exact congrArg DecodeModuleError.DecodeCodeSection (Tells.inj h (tuple1 e))
      | _ => exact noWay e rfl
    | DecodeDataSection _ =>
      cases b with
      | DecodeDataSection _ => exact congrArg DecodeModuleError.DecodeDataSection (Tells.inj h (tuple1 e))
      | _ => exact noWay e rfl
    | DecodeTagSection _ =>
      cases b with
      | DecodeTagSection _ => exact congrArg DecodeModuleError.DecodeTagSection (Tells.inj h (tuple1 e))
      | _ => exact noWay e rfl

end Wadec
