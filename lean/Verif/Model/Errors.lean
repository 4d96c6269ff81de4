import Verif.Model.Io
import Verif.Core.Syntax

/-! Generated by tools/gen_errors.py from the error types of /repo/src/decode: one inductive type
per Rust error enum/struct, same variants, same payloads.

For each type, `ErrInfo` gives
* `root`: the `io::Error` the value contains, if any (following all payloads);
* `shown`: the `io::Error` that appears in the displayed chain of causes, i.e. what a caller
  following `std::error::Error::source()` finds: thiserror makes a payload a source only if the
  variant is `#[error(transparent)]` or the field is `#[from]`, `#[source]` or named `source`;
* `murky`: true for `BlockTypeError::NegativeTypeIndex(-29 | -28)`, which `BlockType::decode`
  (src/decode/instructions.rs:1085-1112) also returns when an I/O error was swallowed, and for
  every error containing such a value. -/

namespace Wadec

/-- `std::string::FromUtf8Error` (in src/decode/helpers.rs:171): the bytes, `Utf8Error::valid_up_to()` and `error_len()`. -/
structure FromUtf8Error where
  bytes : List UInt8
  valid_up_to : Nat
  error_len : Option Nat
  deriving DecidableEq, Repr

/-- Root cause information of an error type: what the `#[from]`, `#[source]` and `#[error(transparent)]`
attributes of the `Error` derives in src/decode/**/*.rs make of its payloads. -/
class ErrInfo (ε : Type) where
  /-- the `io::Error` contained in the error, if there is one -/
  root : ε → Option IoError
  /-- the `io::Error` found in the `source()` chain, if there is one -/
  shown : ε → Option IoError
  /-- errors which may stand for a swallowed I/O error (`BlockType::decode`) -/
  murky : ε → Bool

/-- `std::io::Error` (in src/decode/**/*.rs) -/
instance : ErrInfo IoError where
  root e := some e
  shown e := some e
  murky _ := false

/-- `std::string::FromUtf8Error` (in src/decode/helpers.rs:171) -/
instance : ErrInfo FromUtf8Error where
  root _ := none
  shown _ := none
  murky _ := false

/-- src/decode/integer.rs:8-18 -/
inductive DecodeU32Error where
  | TooLarge
  | RepresentationTooLong
  | Io (e : IoError)
  deriving DecidableEq, Repr

/-- attributes at src/decode/integer.rs:8-18 -/
instance : ErrInfo DecodeU32Error where
  root
    | .TooLarge => none
    | .RepresentationTooLong => none
    | .Io e => ErrInfo.root e
  shown
    | .TooLarge => none
    | .RepresentationTooLong => none
    | .Io e => ErrInfo.shown e
  murky
    | .TooLarge => false
    | .RepresentationTooLong => false
    | .Io e => ErrInfo.murky e

/-- src/decode/integer.rs:52-62 -/
inductive DecodeU64Error where
  | TooLarge
  | RepresentationTooLong
  | Io (e : IoError)
  deriving DecidableEq, Repr

/-- attributes at src/decode/integer.rs:52-62 -/
instance : ErrInfo DecodeU64Error where
  root
    | .TooLarge => none
    | .RepresentationTooLong => none
    | .Io e => ErrInfo.root e
  shown
    | .TooLarge => none
    | .RepresentationTooLong => none
    | .Io e => ErrInfo.shown e
  murky
    | .TooLarge => false
    | .RepresentationTooLong => false
    | .Io e => ErrInfo.murky e

/-- src/decode/integer.rs:96-106 -/
inductive DecodeI32Error where
  | TooLarge
  | RepresentationTooLong
  | Io (e : IoError)
  deriving DecidableEq, Repr

/-- attributes at src/decode/integer.rs:96-106 -/
instance : ErrInfo DecodeI32Error where
  root
    | .TooLarge => none
    | .RepresentationTooLong => none
    | .Io e => ErrInfo.root e
  shown
    | .TooLarge => none
    | .RepresentationTooLong => none
    | .Io e => ErrInfo.shown e
  murky
    | .TooLarge => false
    | .RepresentationTooLong => false
    | .Io e => ErrInfo.murky e

/-- src/decode/integer.rs:139-149 -/
inductive DecodeI64Error where
  | RepresentationTooLong
  | IncorrectSignExtension
  | Io (e : IoError)
  deriving DecidableEq, Repr

/-- attributes at src/decode/integer.rs:139-149 -/
instance : ErrInfo DecodeI64Error where
  root
    | .RepresentationTooLong => none
    | .IncorrectSignExtension => none
    | .Io e => ErrInfo.root e
  shown
    | .RepresentationTooLong => none
    | .IncorrectSignExtension => none
    | .Io e => ErrInfo.shown e
  murky
    | .RepresentationTooLong => false
    | .IncorrectSignExtension => false
    | .Io e => ErrInfo.murky e

/-- src/decode/integer.rs:190-200 -/
inductive DecodeS33Error where
  | RepresentationTooLong
  | IncorrectSignExtension
  | Io (e : IoError)
  deriving DecidableEq, Repr

/-- attributes at src/decode/integer.rs:190-200 -/
instance : ErrInfo DecodeS33Error where
  root
    | .RepresentationTooLong => none
    | .IncorrectSignExtension => none
    | .Io e => ErrInfo.root e
  shown
    | .RepresentationTooLong => none
    | .IncorrectSignExtension => none
    | .Io e => ErrInfo.shown e
  murky
    | .RepresentationTooLong => false
    | .IncorrectSignExtension => false
    | .Io e => ErrInfo.murky e

/-- src/decode/indices.rs:13-16 -/
inductive DecodeLabelIdxError where
  | mk (e : DecodeU32Error)
  deriving DecidableEq, Repr

/-- attributes at src/decode/indices.rs:13-16 -/
instance : ErrInfo DecodeLabelIdxError where
  root
    | .mk e => ErrInfo.root e
  shown
    | .mk e => ErrInfo.shown e
  murky
    | .mk e => ErrInfo.murky e

/-- src/decode/helpers.rs:92-99 -/
inductive DecodeListError (E : Type) where
  | DecodeLength (e : DecodeU32Error)
  | ParseElement (position : UInt32) (source : E)
  deriving DecidableEq, Repr

/-- attributes at src/decode/helpers.rs:92-99 -/
instance {E : Type} [ErrInfo E] : ErrInfo (DecodeListError E) where
  root
    | .DecodeLength e => ErrInfo.root e
    | .ParseElement _ e => ErrInfo.root e
  shown
    | .DecodeLength e => ErrInfo.shown e
    | .ParseElement _ e => ErrInfo.shown e
  murky
    | .DecodeLength e => ErrInfo.murky e
    | .ParseElement _ e => ErrInfo.murky e

/-- src/decode/indices.rs:13-16 -/
inductive DecodeFuncIdxError where
  | mk (e : DecodeU32Error)
  deriving DecidableEq, Repr

/-- attributes at src/decode/indices.rs:13-16 -/
instance : ErrInfo DecodeFuncIdxError where
  root
    | .mk e => ErrInfo.root e
  shown
    | .mk e => ErrInfo.shown e
  murky
    | .mk e => ErrInfo.murky e

/-- src/decode/indices.rs:13-16 -/
inductive DecodeTableIdxError where
  | mk (e : DecodeU32Error)
  deriving DecidableEq, Repr

/-- attributes at src/decode/indices.rs:13-16 -/
instance : ErrInfo DecodeTableIdxError where
  root
    | .mk e => ErrInfo.root e
  shown
    | .mk e => ErrInfo.shown e
  murky
    | .mk e => ErrInfo.murky e

/-- src/decode/indices.rs:13-16 -/
inductive DecodeTypeIdxError where
  | mk (e : DecodeU32Error)
  deriving DecidableEq, Repr

/-- attributes at src/decode/indices.rs:13-16 -/
instance : ErrInfo DecodeTypeIdxError where
  root
    | .mk e => ErrInfo.root e
  shown
    | .mk e => ErrInfo.shown e
  murky
    | .mk e => ErrInfo.murky e

/-- src/decode/indices.rs:13-16 -/
inductive DecodeTagIdxError where
  | mk (e : DecodeU32Error)
  deriving DecidableEq, Repr

/-- attributes at src/decode/indices.rs:13-16 -/
instance : ErrInfo DecodeTagIdxError where
  root
    | .mk e => ErrInfo.root e
  shown
    | .mk e => ErrInfo.shown e
  murky
    | .mk e => ErrInfo.murky e

/-- src/decode/instructions.rs:1113-1126 -/
inductive CatchError where
  | ReadMarkerByte (e : IoError)
  | InvalidMarkerByte (x : UInt8)
  | DecodeTagIdx (e : DecodeTagIdxError)
  | DecodeLabelIdx (e : DecodeLabelIdxError)
  deriving DecidableEq, Repr

/-- attributes at src/decode/instructions.rs:1113-1126 -/
instance : ErrInfo CatchError where
  root
    | .ReadMarkerByte e => ErrInfo.root e
    | .InvalidMarkerByte _ => none
    | .DecodeTagIdx e => ErrInfo.root e
    | .DecodeLabelIdx e => ErrInfo.root e
  shown
    | .ReadMarkerByte e => ErrInfo.shown e
    | .InvalidMarkerByte _ => none
    | .DecodeTagIdx e => ErrInfo.shown e
    | .DecodeLabelIdx e => ErrInfo.shown e
  murky
    | .ReadMarkerByte e => ErrInfo.murky e
    | .InvalidMarkerByte _ => false
    | .DecodeTagIdx e => ErrInfo.murky e
    | .DecodeLabelIdx e => ErrInfo.murky e

/-- src/decode/instructions.rs:1072-1082 -/
inductive BlockTypeError where
  | ReadMarkerByte (e : IoError)
  | DecodeIndex (e : DecodeS33Error)
  | NegativeTypeIndex (x : Int64)
  deriving DecidableEq, Repr

/-- attributes at src/decode/instructions.rs:1072-1082 -/
instance : ErrInfo BlockTypeError where
  root
    | .ReadMarkerByte e => ErrInfo.root e
    | .DecodeIndex e => ErrInfo.root e
    | .NegativeTypeIndex _ => none
  shown
    | .ReadMarkerByte _ => none
    | .DecodeIndex e => ErrInfo.shown e
    | .NegativeTypeIndex _ => none
  murky
    | .NegativeTypeIndex x => x == -29 || x == -28
    | _ => false

/-- src/decode/types/heaptype.rs:10-20 -/
inductive DecodeHeapTypeError where
  | ReadMarkerByte (e : IoError)
  | DecodeTypeIndex (e : DecodeS33Error)
  | NegativeTypeIndex (x : Int64)
  deriving DecidableEq, Repr

/-- attributes at src/decode/types/heaptype.rs:10-20 -/
instance : ErrInfo DecodeHeapTypeError where
  root
    | .ReadMarkerByte e => ErrInfo.root e
    | .DecodeTypeIndex e => ErrInfo.root e
    | .NegativeTypeIndex _ => none
  shown
    | .ReadMarkerByte e => ErrInfo.shown e
    | .DecodeTypeIndex e => ErrInfo.shown e
    | .NegativeTypeIndex _ => none
  murky
    | .ReadMarkerByte e => ErrInfo.murky e
    | .DecodeTypeIndex e => ErrInfo.murky e
    | .NegativeTypeIndex _ => false

/-- src/decode/instructions.rs:61-98 -/
inductive ControlError where
  | LabelIdx (e : DecodeLabelIdxError)
  | DecodeLabelIdxVector (e : (DecodeListError DecodeLabelIdxError))
  | FuncIdx (e : DecodeFuncIdxError)
  | TableIdx (e : DecodeTableIdxError)
  | TypeIdx (e : DecodeTypeIdxError)
  | TagIdx (e : DecodeTagIdxError)
  | DecodeCatchListError (e : (DecodeListError CatchError))
  | BlockType (e : BlockTypeError)
  | UnexpectedElse
  | ReadCastNullabilityMarker (e : IoError)
  | InvalidCastNullabilityMarker (x : UInt8)
  | HeapType (e : DecodeHeapTypeError)
  deriving DecidableEq, Repr

/-- attributes at src/decode/instructions.rs:61-98 -/
instance : ErrInfo ControlError where
  root
    | .LabelIdx e => ErrInfo.root e
    | .DecodeLabelIdxVector e => ErrInfo.root e
    | .FuncIdx e => ErrInfo.root e
    | .TableIdx e => ErrInfo.root e
    | .TypeIdx e => ErrInfo.root e
    | .TagIdx e => ErrInfo.root e
    | .DecodeCatchListError e => ErrInfo.root e
    | .BlockType e => ErrInfo.root e
    | .UnexpectedElse => none
    | .ReadCastNullabilityMarker e => ErrInfo.root e
    | .InvalidCastNullabilityMarker _ => none
    | .HeapType e => ErrInfo.root e
  shown
    | .LabelIdx e => ErrInfo.shown e
    | .DecodeLabelIdxVector e => ErrInfo.shown e
    | .FuncIdx _ => none
    | .TableIdx _ => none
    | .TypeIdx _ => none
    | .TagIdx _ => none
    | .DecodeCatchListError e => ErrInfo.shown e
    | .BlockType _ => none
    | .UnexpectedElse => none
    | .ReadCastNullabilityMarker _ => none
    | .InvalidCastNullabilityMarker _ => none
    | .HeapType e => ErrInfo.shown e
  murky
    | .LabelIdx e => ErrInfo.murky e
    | .DecodeLabelIdxVector e => ErrInfo.murky e
    | .FuncIdx e => ErrInfo.murky e
    | .TableIdx e => ErrInfo.murky e
    | .TypeIdx e => ErrInfo.murky e
    | .TagIdx e => ErrInfo.murky e
    | .DecodeCatchListError e => ErrInfo.murky e
    | .BlockType e => ErrInfo.murky e
    | .UnexpectedElse => false
    | .ReadCastNullabilityMarker e => ErrInfo.murky e
    | .InvalidCastNullabilityMarker _ => false
    | .HeapType e => ErrInfo.murky e

/-- src/decode/instructions.rs:100-110 -/
inductive ReferenceError where
  | HeapType (e : DecodeHeapTypeError)
  | FuncIdx (e : DecodeFuncIdxError)
  | ReadSubOpcode (e : DecodeU32Error)
  deriving DecidableEq, Repr

/-- attributes at src/decode/instructions.rs:100-110 -/
instance : ErrInfo ReferenceError where
  root
    | .HeapType e => ErrInfo.root e
    | .FuncIdx e => ErrInfo.root e
    | .ReadSubOpcode e => ErrInfo.root e
  shown
    | .HeapType _ => none
    | .FuncIdx _ => none
    | .ReadSubOpcode _ => none
  murky
    | .HeapType e => ErrInfo.murky e
    | .FuncIdx e => ErrInfo.murky e
    | .ReadSubOpcode e => ErrInfo.murky e

/-- src/decode/indices.rs:13-16 -/
inductive DecodeDataIdxError where
  | mk (e : DecodeU32Error)
  deriving DecidableEq, Repr

/-- attributes at src/decode/indices.rs:13-16 -/
instance : ErrInfo DecodeDataIdxError where
  root
    | .mk e => ErrInfo.root e
  shown
    | .mk e => ErrInfo.shown e
  murky
    | .mk e => ErrInfo.murky e

/-- src/decode/indices.rs:13-16 -/
inductive DecodeElemIdxError where
  | mk (e : DecodeU32Error)
  deriving DecidableEq, Repr

/-- attributes at src/decode/indices.rs:13-16 -/
instance : ErrInfo DecodeElemIdxError where
  root
    | .mk e => ErrInfo.root e
  shown
    | .mk e => ErrInfo.shown e
  murky
    | .mk e => ErrInfo.murky e

/-- src/decode/instructions.rs:112-128 -/
inductive AggregateError where
  | TypeIdx (e : DecodeTypeIdxError)
  | FieldIndex (e : DecodeU32Error)
  | DataIdx (e : DecodeDataIdxError)
  | ElemIdx (e : DecodeElemIdxError)
  | ArrayFixedLength (e : DecodeU32Error)
  deriving DecidableEq, Repr

/-- attributes at src/decode/instructions.rs:112-128 -/
instance : ErrInfo AggregateError where
  root
    | .TypeIdx e => ErrInfo.root e
    | .FieldIndex e => ErrInfo.root e
    | .DataIdx e => ErrInfo.root e
    | .ElemIdx e => ErrInfo.root e
    | .ArrayFixedLength e => ErrInfo.root e
  shown
    | .TypeIdx _ => none
    | .FieldIndex _ => none
    | .DataIdx _ => none
    | .ElemIdx _ => none
    | .ArrayFixedLength _ => none
  murky
    | .TypeIdx e => ErrInfo.murky e
    | .FieldIndex e => ErrInfo.murky e
    | .DataIdx e => ErrInfo.murky e
    | .ElemIdx e => ErrInfo.murky e
    | .ArrayFixedLength e => ErrInfo.murky e

/-- src/decode/types/heaptype.rs:61-66 -/
inductive InvalidAbsHeapTypeMarkerError where
  | mk (x : UInt8)
  deriving DecidableEq, Repr

/-- attributes at src/decode/types/heaptype.rs:61-66 -/
instance : ErrInfo InvalidAbsHeapTypeMarkerError where
  root
    | .mk _ => none
  shown
    | .mk _ => none
  murky
    | .mk _ => false

/-- src/decode/types/heaptype.rs:82-89 -/
inductive DecodeAbsHeapTypeError where
  | ReadMarkerByte (e : IoError)
  | InvalidMarkerByte (e : InvalidAbsHeapTypeMarkerError)
  deriving DecidableEq, Repr

/-- attributes at src/decode/types/heaptype.rs:82-89 -/
instance : ErrInfo DecodeAbsHeapTypeError where
  root
    | .ReadMarkerByte e => ErrInfo.root e
    | .InvalidMarkerByte e => ErrInfo.root e
  shown
    | .ReadMarkerByte e => ErrInfo.shown e
    | .InvalidMarkerByte e => ErrInfo.shown e
  murky
    | .ReadMarkerByte e => ErrInfo.murky e
    | .InvalidMarkerByte e => ErrInfo.murky e

/-- src/decode/types/reftype.rs:9-19 -/
inductive DecodeRefTypeError where
  | Io (e : IoError)
  | DecodeHeapType (e : DecodeHeapTypeError)
  | InvalidMarkerByte (e : DecodeAbsHeapTypeError)
  deriving DecidableEq, Repr

/-- attributes at src/decode/types/reftype.rs:9-19 -/
instance : ErrInfo DecodeRefTypeError where
  root
    | .Io e => ErrInfo.root e
    | .DecodeHeapType e => ErrInfo.root e
    | .InvalidMarkerByte e => ErrInfo.root e
  shown
    | .Io e => ErrInfo.shown e
    | .DecodeHeapType e => ErrInfo.shown e
    | .InvalidMarkerByte e => ErrInfo.shown e
  murky
    | .Io e => ErrInfo.murky e
    | .DecodeHeapType e => ErrInfo.murky e
    | .InvalidMarkerByte e => ErrInfo.murky e

/-- src/decode/types/valtype.rs:10-17 -/
inductive DecodeValTypeError where
  | Io (e : IoError)
  | DecodeRefType (e : DecodeRefTypeError)
  deriving DecidableEq, Repr

/-- attributes at src/decode/types/valtype.rs:10-17 -/
instance : ErrInfo DecodeValTypeError where
  root
    | .Io e => ErrInfo.root e
    | .DecodeRefType e => ErrInfo.root e
  shown
    | .Io e => ErrInfo.shown e
    | .DecodeRefType e => ErrInfo.shown e
  murky
    | .Io e => ErrInfo.murky e
    | .DecodeRefType e => ErrInfo.murky e

/-- src/decode/instructions.rs:130-134 -/
inductive ParametricError where
  | DecodeList (e : (DecodeListError DecodeValTypeError))
  deriving DecidableEq, Repr

/-- attributes at src/decode/instructions.rs:130-134 -/
instance : ErrInfo ParametricError where
  root
    | .DecodeList e => ErrInfo.root e
  shown
    | .DecodeList e => ErrInfo.shown e
  murky
    | .DecodeList e => ErrInfo.murky e

/-- src/decode/indices.rs:13-16 -/
inductive DecodeLocalIdxError where
  | mk (e : DecodeU32Error)
  deriving DecidableEq, Repr

/-- attributes at src/decode/indices.rs:13-16 -/
instance : ErrInfo DecodeLocalIdxError where
  root
    | .mk e => ErrInfo.root e
  shown
    | .mk e => ErrInfo.shown e
  murky
    | .mk e => ErrInfo.murky e

/-- src/decode/indices.rs:13-16 -/
inductive DecodeGlobalIdxError where
  | mk (e : DecodeU32Error)
  deriving DecidableEq, Repr

/-- attributes at src/decode/indices.rs:13-16 -/
instance : ErrInfo DecodeGlobalIdxError where
  root
    | .mk e => ErrInfo.root e
  shown
    | .mk e => ErrInfo.shown e
  murky
    | .mk e => ErrInfo.murky e

/-- src/decode/instructions.rs:136-143 -/
inductive VariableError where
  | LocalIdx (e : DecodeLocalIdxError)
  | GlobalIdx (e : DecodeGlobalIdxError)
  deriving DecidableEq, Repr

/-- attributes at src/decode/instructions.rs:136-143 -/
instance : ErrInfo VariableError where
  root
    | .LocalIdx e => ErrInfo.root e
    | .GlobalIdx e => ErrInfo.root e
  shown
    | .LocalIdx _ => none
    | .GlobalIdx _ => none
  murky
    | .LocalIdx e => ErrInfo.murky e
    | .GlobalIdx e => ErrInfo.murky e

/-- src/decode/instructions.rs:145-152 -/
inductive TableError where
  | TableIdx (e : DecodeTableIdxError)
  | ElemIdx (e : DecodeElemIdxError)
  deriving DecidableEq, Repr

/-- attributes at src/decode/instructions.rs:145-152 -/
instance : ErrInfo TableError where
  root
    | .TableIdx e => ErrInfo.root e
    | .ElemIdx e => ErrInfo.root e
  shown
    | .TableIdx _ => none
    | .ElemIdx _ => none
  murky
    | .TableIdx e => ErrInfo.murky e
    | .ElemIdx e => ErrInfo.murky e

/-- src/decode/indices.rs:13-16 -/
inductive DecodeMemIdxError where
  | mk (e : DecodeU32Error)
  deriving DecidableEq, Repr

/-- attributes at src/decode/indices.rs:13-16 -/
instance : ErrInfo DecodeMemIdxError where
  root
    | .mk e => ErrInfo.root e
  shown
    | .mk e => ErrInfo.shown e
  murky
    | .mk e => ErrInfo.murky e

/-- src/decode/instructions.rs:1021-1034 -/
inductive MemargError where
  | InvalidFlagsBit (x : UInt32)
  | Align (e : DecodeU32Error)
  | Offset (e : DecodeU64Error)
  | MemIdx (e : DecodeMemIdxError)
  deriving DecidableEq, Repr

/-- attributes at src/decode/instructions.rs:1021-1034 -/
instance : ErrInfo MemargError where
  root
    | .InvalidFlagsBit _ => none
    | .Align e => ErrInfo.root e
    | .Offset e => ErrInfo.root e
    | .MemIdx e => ErrInfo.root e
  shown
    | .InvalidFlagsBit _ => none
    | .Align _ => none
    | .Offset _ => none
    | .MemIdx e => ErrInfo.shown e
  murky
    | .InvalidFlagsBit _ => false
    | .Align e => ErrInfo.murky e
    | .Offset e => ErrInfo.murky e
    | .MemIdx e => ErrInfo.murky e

/-- src/decode/instructions.rs:154-164 -/
inductive MemoryError where
  | DecodeMemarg (e : MemargError)
  | DecodeDataIdx (e : DecodeDataIdxError)
  | DecodeMemIdx (e : DecodeMemIdxError)
  deriving DecidableEq, Repr

/-- attributes at src/decode/instructions.rs:154-164 -/
instance : ErrInfo MemoryError where
  root
    | .DecodeMemarg e => ErrInfo.root e
    | .DecodeDataIdx e => ErrInfo.root e
    | .DecodeMemIdx e => ErrInfo.root e
  shown
    | .DecodeMemarg _ => none
    | .DecodeDataIdx _ => none
    | .DecodeMemIdx _ => none
  murky
    | .DecodeMemarg e => ErrInfo.murky e
    | .DecodeDataIdx e => ErrInfo.murky e
    | .DecodeMemIdx e => ErrInfo.murky e

/-- src/decode/helpers.rs:68-72 -/
inductive DecodeFloat32Error where
  | ReadPayload (e : IoError)
  deriving DecidableEq, Repr

/-- attributes at src/decode/helpers.rs:68-72 -/
instance : ErrInfo DecodeFloat32Error where
  root
    | .ReadPayload e => ErrInfo.root e
  shown
    | .ReadPayload e => ErrInfo.shown e
  murky
    | .ReadPayload e => ErrInfo.murky e

/-- src/decode/helpers.rs:80-84 -/
inductive DecodeFloat64Error where
  | ReadPayload (e : IoError)
  deriving DecidableEq, Repr

/-- attributes at src/decode/helpers.rs:80-84 -/
instance : ErrInfo DecodeFloat64Error where
  root
    | .ReadPayload e => ErrInfo.root e
  shown
    | .ReadPayload e => ErrInfo.shown e
  murky
    | .ReadPayload e => ErrInfo.murky e

/-- src/decode/instructions.rs:166-182 -/
inductive NumericError where
  | ReadOpcode (e : DecodeU32Error)
  | DecodeI32 (e : DecodeI32Error)
  | DecodeI64 (e : DecodeI64Error)
  | DecodeF32 (e : DecodeFloat32Error)
  | DecodeF64 (e : DecodeFloat64Error)
  deriving DecidableEq, Repr

/-- attributes at src/decode/instructions.rs:166-182 -/
instance : ErrInfo NumericError where
  root
    | .ReadOpcode e => ErrInfo.root e
    | .DecodeI32 e => ErrInfo.root e
    | .DecodeI64 e => ErrInfo.root e
    | .DecodeF32 e => ErrInfo.root e
    | .DecodeF64 e => ErrInfo.root e
  shown
    | .ReadOpcode _ => none
    | .DecodeI32 e => ErrInfo.shown e
    | .DecodeI64 e => ErrInfo.shown e
    | .DecodeF32 e => ErrInfo.shown e
    | .DecodeF64 e => ErrInfo.shown e
  murky
    | .ReadOpcode e => ErrInfo.murky e
    | .DecodeI32 e => ErrInfo.murky e
    | .DecodeI64 e => ErrInfo.murky e
    | .DecodeF32 e => ErrInfo.murky e
    | .DecodeF64 e => ErrInfo.murky e

/-- src/decode/instructions.rs:1058-1060 -/
inductive LaneIdxError where
  | mk (e : IoError)
  deriving DecidableEq, Repr

/-- attributes at src/decode/instructions.rs:1058-1060 -/
instance : ErrInfo LaneIdxError where
  root
    | .mk e => ErrInfo.root e
  shown
    | .mk e => ErrInfo.shown e
  murky
    | .mk e => ErrInfo.murky e

/-- src/decode/instructions.rs:184-200 -/
inductive VectorError where
  | ReadOpcode (e : DecodeU32Error)
  | Memarg (e : MemargError)
  | LaneIdx (e : LaneIdxError)
  | ReadImmediateBytes (e : IoError)
  | InvalidOpcode (x : UInt32)
  deriving DecidableEq, Repr

/-- attributes at src/decode/instructions.rs:184-200 -/
instance : ErrInfo VectorError where
  root
    | .ReadOpcode e => ErrInfo.root e
    | .Memarg e => ErrInfo.root e
    | .LaneIdx e => ErrInfo.root e
    | .ReadImmediateBytes e => ErrInfo.root e
    | .InvalidOpcode _ => none
  shown
    | .ReadOpcode _ => none
    | .Memarg e => ErrInfo.shown e
    | .LaneIdx e => ErrInfo.shown e
    | .ReadImmediateBytes _ => none
    | .InvalidOpcode _ => none
  murky
    | .ReadOpcode e => ErrInfo.murky e
    | .Memarg e => ErrInfo.murky e
    | .LaneIdx e => ErrInfo.murky e
    | .ReadImmediateBytes e => ErrInfo.murky e
    | .InvalidOpcode _ => false

/-- src/decode/instructions.rs:19-59 -/
inductive ParseError where
  | ReadOpcode (e : IoError)
  | Control (e : ControlError)
  | Reference (e : ReferenceError)
  | Aggregate (e : AggregateError)
  | Parametric (e : ParametricError)
  | Variable (e : VariableError)
  | Table (e : TableError)
  | Memory (e : MemoryError)
  | Numeric (e : NumericError)
  | Vector (e : VectorError)
  | InvalidOpcode (x : UInt8)
  | InvalidMarkerByteAfterFC (x : UInt32)
  | InvalidMarkerByteAfterFB (x : UInt32)
  deriving DecidableEq, Repr

/-- attributes at src/decode/instructions.rs:19-59 -/
instance : ErrInfo ParseError where
  root
    | .ReadOpcode e => ErrInfo.root e
    | .Control e => ErrInfo.root e
    | .Reference e => ErrInfo.root e
    | .Aggregate e => ErrInfo.root e
    | .Parametric e => ErrInfo.root e
    | .Variable e => ErrInfo.root e
    | .Table e => ErrInfo.root e
    | .Memory e => ErrInfo.root e
    | .Numeric e => ErrInfo.root e
    | .Vector e => ErrInfo.root e
    | .InvalidOpcode _ => none
    | .InvalidMarkerByteAfterFC _ => none
    | .InvalidMarkerByteAfterFB _ => none
  shown
    | .ReadOpcode e => ErrInfo.shown e
    | .Control e => ErrInfo.shown e
    | .Reference e => ErrInfo.shown e
    | .Aggregate e => ErrInfo.shown e
    | .Parametric e => ErrInfo.shown e
    | .Variable e => ErrInfo.shown e
    | .Table e => ErrInfo.shown e
    | .Memory e => ErrInfo.shown e
    | .Numeric e => ErrInfo.shown e
    | .Vector e => ErrInfo.shown e
    | .InvalidOpcode _ => none
    | .InvalidMarkerByteAfterFC _ => none
    | .InvalidMarkerByteAfterFB _ => none
  murky
    | .ReadOpcode e => ErrInfo.murky e
    | .Control e => ErrInfo.murky e
    | .Reference e => ErrInfo.murky e
    | .Aggregate e => ErrInfo.murky e
    | .Parametric e => ErrInfo.murky e
    | .Variable e => ErrInfo.murky e
    | .Table e => ErrInfo.murky e
    | .Memory e => ErrInfo.murky e
    | .Numeric e => ErrInfo.murky e
    | .Vector e => ErrInfo.murky e
    | .InvalidOpcode _ => false
    | .InvalidMarkerByteAfterFC _ => false
    | .InvalidMarkerByteAfterFB _ => false

/-- src/decode/helpers.rs:14-21 -/
inductive ParseExpressionError where
  | ParseInstruction (e : ParseError)
  | UnexpectedElse
  deriving DecidableEq, Repr

/-- attributes at src/decode/helpers.rs:14-21 -/
instance : ErrInfo ParseExpressionError where
  root
    | .ParseInstruction e => ErrInfo.root e
    | .UnexpectedElse => none
  shown
    | .ParseInstruction e => ErrInfo.shown e
    | .UnexpectedElse => none
  murky
    | .ParseInstruction e => ErrInfo.murky e
    | .UnexpectedElse => false

/-- src/decode/helpers.rs:147-154 -/
inductive DecodeByteVectorError where
  | DecodeLength (e : DecodeU32Error)
  | ReadElements (e : IoError)
  deriving DecidableEq, Repr

/-- attributes at src/decode/helpers.rs:147-154 -/
instance : ErrInfo DecodeByteVectorError where
  root
    | .DecodeLength e => ErrInfo.root e
    | .ReadElements e => ErrInfo.root e
  shown
    | .DecodeLength e => ErrInfo.shown e
    | .ReadElements e => ErrInfo.shown e
  murky
    | .DecodeLength e => ErrInfo.murky e
    | .ReadElements e => ErrInfo.murky e

/-- src/decode/helpers.rs:165-172 -/
inductive DecodeNameError where
  | DecodeByteVector (e : DecodeByteVectorError)
  | Utf8 (e : FromUtf8Error)
  deriving DecidableEq, Repr

/-- attributes at src/decode/helpers.rs:165-172 -/
instance : ErrInfo DecodeNameError where
  root
    | .DecodeByteVector e => ErrInfo.root e
    | .Utf8 e => ErrInfo.root e
  shown
    | .DecodeByteVector e => ErrInfo.shown e
    | .Utf8 e => ErrInfo.shown e
  murky
    | .DecodeByteVector e => ErrInfo.murky e
    | .Utf8 e => ErrInfo.murky e

/-- src/decode/types/comptype.rs:92-102 -/
inductive DecodeStorageTypeError where
  | ReadMarkerByte (e : IoError)
  | DecodeValTypeOrPackType (marker : UInt8) (source : DecodeValTypeError)
  deriving DecidableEq, Repr

/-- attributes at src/decode/types/comptype.rs:92-102 -/
instance : ErrInfo DecodeStorageTypeError where
  root
    | .ReadMarkerByte e => ErrInfo.root e
    | .DecodeValTypeOrPackType _ e => ErrInfo.root e
  shown
    | .ReadMarkerByte e => ErrInfo.shown e
    | .DecodeValTypeOrPackType _ e => ErrInfo.shown e
  murky
    | .ReadMarkerByte e => ErrInfo.murky e
    | .DecodeValTypeOrPackType _ e => ErrInfo.murky e

/-- src/decode/types/globaltype.rs:43-48 -/
inductive InvalidMutabilityByteError where
  | mk (x : UInt8)
  deriving DecidableEq, Repr

/-- attributes at src/decode/types/globaltype.rs:43-48 -/
instance : ErrInfo InvalidMutabilityByteError where
  root
    | .mk _ => none
  shown
    | .mk _ => none
  murky
    | .mk _ => false

/-- src/decode/types/comptype.rs:67-77 -/
inductive DecodeFieldTypeError where
  | DecodeStorageType (e : DecodeStorageTypeError)
  | ReadMutabilityMarkerByte (e : IoError)
  | DecodeMutability (e : InvalidMutabilityByteError)
  deriving DecidableEq, Repr

/-- attributes at src/decode/types/comptype.rs:67-77 -/
instance : ErrInfo DecodeFieldTypeError where
  root
    | .DecodeStorageType e => ErrInfo.root e
    | .ReadMutabilityMarkerByte e => ErrInfo.root e
    | .DecodeMutability e => ErrInfo.root e
  shown
    | .DecodeStorageType e => ErrInfo.shown e
    | .ReadMutabilityMarkerByte e => ErrInfo.shown e
    | .DecodeMutability e => ErrInfo.shown e
  murky
    | .DecodeStorageType e => ErrInfo.murky e
    | .ReadMutabilityMarkerByte e => ErrInfo.murky e
    | .DecodeMutability e => ErrInfo.murky e

/-- src/decode/types/resulttype.rs:8-12 -/
inductive DecodeResultTypeError where
  | DecodeList (e : (DecodeListError DecodeValTypeError))
  deriving DecidableEq, Repr

/-- attributes at src/decode/types/resulttype.rs:8-12 -/
instance : ErrInfo DecodeResultTypeError where
  root
    | .DecodeList e => ErrInfo.root e
  shown
    | .DecodeList e => ErrInfo.shown e
  murky
    | .DecodeList e => ErrInfo.murky e

/-- src/decode/types/comptype.rs:14-33 -/
inductive DecodeCompTypeError where
  | ReadMarkerByte (e : IoError)
  | InvalidMarkerByte (x : UInt8)
  | DecodeStruct (e : (DecodeListError DecodeFieldTypeError))
  | DecodeFuncParameters (e : DecodeResultTypeError)
  | DecodeFuncResults (e : DecodeResultTypeError)
  | DecodeFieldType (e : DecodeFieldTypeError)
  deriving DecidableEq, Repr

/-- attributes at src/decode/types/comptype.rs:14-33 -/
instance : ErrInfo DecodeCompTypeError where
  root
    | .ReadMarkerByte e => ErrInfo.root e
    | .InvalidMarkerByte _ => none
    | .DecodeStruct e => ErrInfo.root e
    | .DecodeFuncParameters e => ErrInfo.root e
    | .DecodeFuncResults e => ErrInfo.root e
    | .DecodeFieldType e => ErrInfo.root e
  shown
    | .ReadMarkerByte e => ErrInfo.shown e
    | .InvalidMarkerByte _ => none
    | .DecodeStruct e => ErrInfo.shown e
    | .DecodeFuncParameters _ => none
    | .DecodeFuncResults _ => none
    | .DecodeFieldType e => ErrInfo.shown e
  murky
    | .ReadMarkerByte e => ErrInfo.murky e
    | .InvalidMarkerByte _ => false
    | .DecodeStruct e => ErrInfo.murky e
    | .DecodeFuncParameters e => ErrInfo.murky e
    | .DecodeFuncResults e => ErrInfo.murky e
    | .DecodeFieldType e => ErrInfo.murky e

/-- src/decode/types/comptype.rs:124-126 -/
inductive InvalidPackTypeMarkerError where
  | mk (x : UInt8)
  deriving DecidableEq, Repr

/-- attributes at src/decode/types/comptype.rs:124-126 -/
instance : ErrInfo InvalidPackTypeMarkerError where
  root
    | .mk _ => none
  shown
    | .mk _ => none
  murky
    | .mk _ => false

/-- src/decode/types/limits.rs:8-21 -/
inductive ParseLimitsError where
  | ReadFlagByte (e : IoError)
  | UnexpectedFlagByte (x : UInt8)
  | ReadMinLimit (e : DecodeU64Error)
  | ReadMaxLimit (e : DecodeU64Error)
  deriving DecidableEq, Repr

/-- attributes at src/decode/types/limits.rs:8-21 -/
instance : ErrInfo ParseLimitsError where
  root
    | .ReadFlagByte e => ErrInfo.root e
    | .UnexpectedFlagByte _ => none
    | .ReadMinLimit e => ErrInfo.root e
    | .ReadMaxLimit e => ErrInfo.root e
  shown
    | .ReadFlagByte _ => none
    | .UnexpectedFlagByte _ => none
    | .ReadMinLimit _ => none
    | .ReadMaxLimit _ => none
  murky
    | .ReadFlagByte e => ErrInfo.murky e
    | .UnexpectedFlagByte _ => false
    | .ReadMinLimit e => ErrInfo.murky e
    | .ReadMaxLimit e => ErrInfo.murky e

/-- src/decode/types/tabletype.rs:9-16 -/
inductive DecodeTableTypeError where
  | DecodeRefType (e : DecodeRefTypeError)
  | DecodeLimits (e : ParseLimitsError)
  deriving DecidableEq, Repr

/-- attributes at src/decode/types/tabletype.rs:9-16 -/
instance : ErrInfo DecodeTableTypeError where
  root
    | .DecodeRefType e => ErrInfo.root e
    | .DecodeLimits e => ErrInfo.root e
  shown
    | .DecodeRefType e => ErrInfo.shown e
    | .DecodeLimits e => ErrInfo.shown e
  murky
    | .DecodeRefType e => ErrInfo.murky e
    | .DecodeLimits e => ErrInfo.murky e

/-- src/decode/types/memtype.rs:6-8 -/
inductive DecodeMemoryTypeError where
  | mk (e : ParseLimitsError)
  deriving DecidableEq, Repr

/-- attributes at src/decode/types/memtype.rs:6-8 -/
instance : ErrInfo DecodeMemoryTypeError where
  root
    | .mk e => ErrInfo.root e
  shown
    | .mk e => ErrInfo.shown e
  murky
    | .mk e => ErrInfo.murky e

/-- src/decode/types/globaltype.rs:10-20 -/
inductive DecodeGlobalTypeError where
  | DecodeValueType (e : DecodeValTypeError)
  | DecodeMutability (e : IoError)
  | InvalidMutability (e : InvalidMutabilityByteError)
  deriving DecidableEq, Repr

/-- attributes at src/decode/types/globaltype.rs:10-20 -/
instance : ErrInfo DecodeGlobalTypeError where
  root
    | .DecodeValueType e => ErrInfo.root e
    | .DecodeMutability e => ErrInfo.root e
    | .InvalidMutability e => ErrInfo.root e
  shown
    | .DecodeValueType e => ErrInfo.shown e
    | .DecodeMutability _ => none
    | .InvalidMutability e => ErrInfo.shown e
  murky
    | .DecodeValueType e => ErrInfo.murky e
    | .DecodeMutability e => ErrInfo.murky e
    | .InvalidMutability e => ErrInfo.murky e

/-- src/decode/types/tagtype.rs:8-21 -/
inductive DecodeTagTypeError where
  | ReadMarkerByte (e : IoError)
  | InvalidMarkerByte (x : UInt8)
  | DecodeTypeIndex (e : DecodeTypeIdxError)
  deriving DecidableEq, Repr

/-- attributes at src/decode/types/tagtype.rs:8-21 -/
instance : ErrInfo DecodeTagTypeError where
  root
    | .ReadMarkerByte e => ErrInfo.root e
    | .InvalidMarkerByte _ => none
    | .DecodeTypeIndex e => ErrInfo.root e
  shown
    | .ReadMarkerByte e => ErrInfo.shown e
    | .InvalidMarkerByte _ => none
    | .DecodeTypeIndex e => ErrInfo.shown e
  murky
    | .ReadMarkerByte e => ErrInfo.murky e
    | .InvalidMarkerByte _ => false
    | .DecodeTypeIndex e => ErrInfo.murky e

/-- src/decode/types/externtype.rs:16-40 -/
inductive DecodeExternTypeError where
  | ReadMarkerByte (e : IoError)
  | InvalidMarkerByte (x : UInt8)
  | DecodeTypeIndex (e : DecodeTypeIdxError)
  | DecodeTableType (e : DecodeTableTypeError)
  | DecodeMemoryType (e : DecodeMemoryTypeError)
  | DecodeGlobalType (e : DecodeGlobalTypeError)
  | DecodeTagType (e : DecodeTagTypeError)
  deriving DecidableEq, Repr

/-- attributes at src/decode/types/externtype.rs:16-40 -/
instance : ErrInfo DecodeExternTypeError where
  root
    | .ReadMarkerByte e => ErrInfo.root e
    | .InvalidMarkerByte _ => none
    | .DecodeTypeIndex e => ErrInfo.root e
    | .DecodeTableType e => ErrInfo.root e
    | .DecodeMemoryType e => ErrInfo.root e
    | .DecodeGlobalType e => ErrInfo.root e
    | .DecodeTagType e => ErrInfo.root e
  shown
    | .ReadMarkerByte e => ErrInfo.shown e
    | .InvalidMarkerByte _ => none
    | .DecodeTypeIndex e => ErrInfo.shown e
    | .DecodeTableType e => ErrInfo.shown e
    | .DecodeMemoryType e => ErrInfo.shown e
    | .DecodeGlobalType e => ErrInfo.shown e
    | .DecodeTagType e => ErrInfo.shown e
  murky
    | .ReadMarkerByte e => ErrInfo.murky e
    | .InvalidMarkerByte _ => false
    | .DecodeTypeIndex e => ErrInfo.murky e
    | .DecodeTableType e => ErrInfo.murky e
    | .DecodeMemoryType e => ErrInfo.murky e
    | .DecodeGlobalType e => ErrInfo.murky e
    | .DecodeTagType e => ErrInfo.murky e

/-- src/decode/types/rectype.rs:41-51 -/
inductive DecodeSubTypeError where
  | Io (e : IoError)
  | DecodeSupertypes (e : (DecodeListError DecodeTypeIdxError))
  | DecodeCompType (e : DecodeCompTypeError)
  deriving DecidableEq, Repr

/-- attributes at src/decode/types/rectype.rs:41-51 -/
instance : ErrInfo DecodeSubTypeError where
  root
    | .Io e => ErrInfo.root e
    | .DecodeSupertypes e => ErrInfo.root e
    | .DecodeCompType e => ErrInfo.root e
  shown
    | .Io e => ErrInfo.shown e
    | .DecodeSupertypes e => ErrInfo.shown e
    | .DecodeCompType e => ErrInfo.shown e
  murky
    | .Io e => ErrInfo.murky e
    | .DecodeSupertypes e => ErrInfo.murky e
    | .DecodeCompType e => ErrInfo.murky e

/-- src/decode/types/rectype.rs:10-20 -/
inductive DecodeRecTypeError where
  | Io (e : IoError)
  | DecodeSubtypes (e : (DecodeListError DecodeSubTypeError))
  | DecodeSubtype (e : DecodeSubTypeError)
  deriving DecidableEq, Repr

/-- attributes at src/decode/types/rectype.rs:10-20 -/
instance : ErrInfo DecodeRecTypeError where
  root
    | .Io e => ErrInfo.root e
    | .DecodeSubtypes e => ErrInfo.root e
    | .DecodeSubtype e => ErrInfo.root e
  shown
    | .Io e => ErrInfo.shown e
    | .DecodeSubtypes e => ErrInfo.shown e
    | .DecodeSubtype e => ErrInfo.shown e
  murky
    | .Io e => ErrInfo.murky e
    | .DecodeSubtypes e => ErrInfo.murky e
    | .DecodeSubtype e => ErrInfo.murky e

/-- src/decode/sections/code.rs:85-95 -/
inductive DecodeCodeLocalsError where
  | DecodeLocalsCount (e : DecodeU32Error)
  | LocalsCountOutOfBound (max_locals : UInt64) (actual_locals : UInt64)
  | DecodeLocalValType (e : DecodeValTypeError)
  deriving DecidableEq, Repr

/-- attributes at src/decode/sections/code.rs:85-95 -/
instance : ErrInfo DecodeCodeLocalsError where
  root
    | .DecodeLocalsCount e => ErrInfo.root e
    | .LocalsCountOutOfBound _ _ => none
    | .DecodeLocalValType e => ErrInfo.root e
  shown
    | .DecodeLocalsCount _ => none
    | .LocalsCountOutOfBound _ _ => none
    | .DecodeLocalValType e => ErrInfo.shown e
  murky
    | .DecodeLocalsCount e => ErrInfo.murky e
    | .LocalsCountOutOfBound _ _ => false
    | .DecodeLocalValType e => ErrInfo.murky e

/-- src/decode/sections/code.rs:29-48 -/
inductive DecodeCodeError where
  | DecodeFunctionSize (e : DecodeU32Error)
  | DecodeLocalsVector (e : (DecodeListError DecodeCodeLocalsError))
  | DecodeFunctionBody (e : ParseExpressionError)
  | EntrySizeMismatch (declared_bytes : UInt32) (leftover_bytes : UInt64) (consumed_bytes : UInt64)
  deriving DecidableEq, Repr

/-- attributes at src/decode/sections/code.rs:29-48 -/
instance : ErrInfo DecodeCodeError where
  root
    | .DecodeFunctionSize e => ErrInfo.root e
    | .DecodeLocalsVector e => ErrInfo.root e
    | .DecodeFunctionBody e => ErrInfo.root e
    | .EntrySizeMismatch _ _ _ => none
  shown
    | .DecodeFunctionSize _ => none
    | .DecodeLocalsVector e => ErrInfo.shown e
    | .DecodeFunctionBody e => ErrInfo.shown e
    | .EntrySizeMismatch _ _ _ => none
  murky
    | .DecodeFunctionSize e => ErrInfo.murky e
    | .DecodeLocalsVector e => ErrInfo.murky e
    | .DecodeFunctionBody e => ErrInfo.murky e
    | .EntrySizeMismatch _ _ _ => false

/-- src/decode/sections/code.rs:9-13 -/
inductive DecodeCodeSectionError where
  | DecodeList (e : (DecodeListError DecodeCodeError))
  deriving DecidableEq, Repr

/-- attributes at src/decode/sections/code.rs:9-13 -/
instance : ErrInfo DecodeCodeSectionError where
  root
    | .DecodeList e => ErrInfo.root e
  shown
    | .DecodeList e => ErrInfo.shown e
  murky
    | .DecodeList e => ErrInfo.murky e

/-- src/decode/sections/custom.rs:6-13 -/
inductive DecodeCustomSectionError where
  | DecodeName (e : DecodeNameError)
  | Io (e : IoError)
  deriving DecidableEq, Repr

/-- attributes at src/decode/sections/custom.rs:6-13 -/
instance : ErrInfo DecodeCustomSectionError where
  root
    | .DecodeName e => ErrInfo.root e
    | .Io e => ErrInfo.root e
  shown
    | .DecodeName e => ErrInfo.shown e
    | .Io e => ErrInfo.shown e
  murky
    | .DecodeName e => ErrInfo.murky e
    | .Io e => ErrInfo.murky e

/-- src/decode/sections/data.rs:24-40 -/
inductive DecodeDataSegmentError where
  | DecodeBitfield (e : DecodeU32Error)
  | InvalidBitfield (x : UInt32)
  | DecodeOffsetExpr (e : ParseExpressionError)
  | DecodeInitVector (e : DecodeByteVectorError)
  | DecodeMemIdx (e : DecodeMemIdxError)
  deriving DecidableEq, Repr

/-- attributes at src/decode/sections/data.rs:24-40 -/
instance : ErrInfo DecodeDataSegmentError where
  root
    | .DecodeBitfield e => ErrInfo.root e
    | .InvalidBitfield _ => none
    | .DecodeOffsetExpr e => ErrInfo.root e
    | .DecodeInitVector e => ErrInfo.root e
    | .DecodeMemIdx e => ErrInfo.root e
  shown
    | .DecodeBitfield _ => none
    | .InvalidBitfield _ => none
    | .DecodeOffsetExpr _ => none
    | .DecodeInitVector e => ErrInfo.shown e
    | .DecodeMemIdx e => ErrInfo.shown e
  murky
    | .DecodeBitfield e => ErrInfo.murky e
    | .InvalidBitfield _ => false
    | .DecodeOffsetExpr e => ErrInfo.murky e
    | .DecodeInitVector e => ErrInfo.murky e
    | .DecodeMemIdx e => ErrInfo.murky e

/-- src/decode/sections/data.rs:12-16 -/
inductive DecodeDataSectionError where
  | DecodeList (e : (DecodeListError DecodeDataSegmentError))
  deriving DecidableEq, Repr

/-- attributes at src/decode/sections/data.rs:12-16 -/
instance : ErrInfo DecodeDataSectionError where
  root
    | .DecodeList e => ErrInfo.root e
  shown
    | .DecodeList e => ErrInfo.shown e
  murky
    | .DecodeList e => ErrInfo.murky e

/-- src/decode/sections/data_count.rs:5-9 -/
inductive DecodeDataCountSectionError where
  | DecodeDataSegmentCount (e : DecodeU32Error)
  deriving DecidableEq, Repr

/-- attributes at src/decode/sections/data_count.rs:5-9 -/
instance : ErrInfo DecodeDataCountSectionError where
  root
    | .DecodeDataSegmentCount e => ErrInfo.root e
  shown
    | .DecodeDataSegmentCount e => ErrInfo.shown e
  murky
    | .DecodeDataSegmentCount e => ErrInfo.murky e

/-- src/decode/sections/element.rs:166-173 -/
inductive DecodeElementKindError where
  | Io (e : IoError)
  | InvalidElemKind (x : UInt8)
  deriving DecidableEq, Repr

/-- attributes at src/decode/sections/element.rs:166-173 -/
instance : ErrInfo DecodeElementKindError where
  root
    | .Io e => ErrInfo.root e
    | .InvalidElemKind _ => none
  shown
    | .Io e => ErrInfo.shown e
    | .InvalidElemKind _ => none
  murky
    | .Io e => ErrInfo.murky e
    | .InvalidElemKind _ => false

/-- src/decode/sections/element.rs:31-59 -/
inductive DecodeElementError where
  | DecodeBitfield (e : DecodeU32Error)
  | InvalidBitfield (x : UInt32)
  | DecodeOffsetExpression (e : ParseExpressionError)
  | DecodeElementKind (e : DecodeElementKindError)
  | DecodeElementExpression (e : ParseExpressionError)
  | DecodeTableIdx (e : DecodeTableIdxError)
  | DecodeReferenceType (e : DecodeRefTypeError)
  | DecodeInit (e : (DecodeListError ParseExpressionError))
  | DecodeFuncIdxVector (e : (DecodeListError DecodeFuncIdxError))
  deriving DecidableEq, Repr

/-- attributes at src/decode/sections/element.rs:31-59 -/
instance : ErrInfo DecodeElementError where
  root
    | .DecodeBitfield e => ErrInfo.root e
    | .InvalidBitfield _ => none
    | .DecodeOffsetExpression e => ErrInfo.root e
    | .DecodeElementKind e => ErrInfo.root e
    | .DecodeElementExpression e => ErrInfo.root e
    | .DecodeTableIdx e => ErrInfo.root e
    | .DecodeReferenceType e => ErrInfo.root e
    | .DecodeInit e => ErrInfo.root e
    | .DecodeFuncIdxVector e => ErrInfo.root e
  shown
    | .DecodeBitfield _ => none
    | .InvalidBitfield _ => none
    | .DecodeOffsetExpression _ => none
    | .DecodeElementKind e => ErrInfo.shown e
    | .DecodeElementExpression _ => none
    | .DecodeTableIdx e => ErrInfo.shown e
    | .DecodeReferenceType e => ErrInfo.shown e
    | .DecodeInit _ => none
    | .DecodeFuncIdxVector e => ErrInfo.shown e
  murky
    | .DecodeBitfield e => ErrInfo.murky e
    | .InvalidBitfield _ => false
    | .DecodeOffsetExpression e => ErrInfo.murky e
    | .DecodeElementKind e => ErrInfo.murky e
    | .DecodeElementExpression e => ErrInfo.murky e
    | .DecodeTableIdx e => ErrInfo.murky e
    | .DecodeReferenceType e => ErrInfo.murky e
    | .DecodeInit e => ErrInfo.murky e
    | .DecodeFuncIdxVector e => ErrInfo.murky e

/-- src/decode/sections/element.rs:15-19 -/
inductive DecodeElementSectionError where
  | DecodeList (e : (DecodeListError DecodeElementError))
  deriving DecidableEq, Repr

/-- attributes at src/decode/sections/element.rs:15-19 -/
instance : ErrInfo DecodeElementSectionError where
  root
    | .DecodeList e => ErrInfo.root e
  shown
    | .DecodeList e => ErrInfo.shown e
  murky
    | .DecodeList e => ErrInfo.murky e

/-- src/decode/sections/export.rs:50-54 -/
inductive InvalidExportDescMarkerByte where
  | mk (x : UInt8)
  deriving DecidableEq, Repr

/-- attributes at src/decode/sections/export.rs:50-54 -/
instance : ErrInfo InvalidExportDescMarkerByte where
  root
    | .mk _ => none
  shown
    | .mk _ => none
  murky
    | .mk _ => false

/-- src/decode/sections/export.rs:22-35 -/
inductive DecodeExportError where
  | DecodeName (e : DecodeNameError)
  | ReadDescriptorMarkerByte (e : IoError)
  | DecodeIndex (e : DecodeU32Error)
  | InvalidDescriptorMarkerByte (e : InvalidExportDescMarkerByte)
  deriving DecidableEq, Repr

/-- attributes at src/decode/sections/export.rs:22-35 -/
instance : ErrInfo DecodeExportError where
  root
    | .DecodeName e => ErrInfo.root e
    | .ReadDescriptorMarkerByte e => ErrInfo.root e
    | .DecodeIndex e => ErrInfo.root e
    | .InvalidDescriptorMarkerByte e => ErrInfo.root e
  shown
    | .DecodeName e => ErrInfo.shown e
    | .ReadDescriptorMarkerByte _ => none
    | .DecodeIndex e => ErrInfo.shown e
    | .InvalidDescriptorMarkerByte e => ErrInfo.shown e
  murky
    | .DecodeName e => ErrInfo.murky e
    | .ReadDescriptorMarkerByte e => ErrInfo.murky e
    | .DecodeIndex e => ErrInfo.murky e
    | .InvalidDescriptorMarkerByte e => ErrInfo.murky e

/-- src/decode/sections/export.rs:10-14 -/
inductive DecodeExportSectionError where
  | DecodeList (e : (DecodeListError DecodeExportError))
  deriving DecidableEq, Repr

/-- attributes at src/decode/sections/export.rs:10-14 -/
instance : ErrInfo DecodeExportSectionError where
  root
    | .DecodeList e => ErrInfo.root e
  shown
    | .DecodeList e => ErrInfo.shown e
  murky
    | .DecodeList e => ErrInfo.murky e

/-- src/decode/sections/function.rs:7-11 -/
inductive DecodeFunctionSectionError where
  | DecodeList (e : (DecodeListError DecodeTypeIdxError))
  deriving DecidableEq, Repr

/-- attributes at src/decode/sections/function.rs:7-11 -/
instance : ErrInfo DecodeFunctionSectionError where
  root
    | .DecodeList e => ErrInfo.root e
  shown
    | .DecodeList e => ErrInfo.shown e
  murky
    | .DecodeList e => ErrInfo.murky e

/-- src/decode/sections/global.rs:20-27 -/
inductive DecodeGlobalError where
  | DecodeGlobalType (e : DecodeGlobalTypeError)
  | DecodeInit (e : ParseExpressionError)
  deriving DecidableEq, Repr

/-- attributes at src/decode/sections/global.rs:20-27 -/
instance : ErrInfo DecodeGlobalError where
  root
    | .DecodeGlobalType e => ErrInfo.root e
    | .DecodeInit e => ErrInfo.root e
  shown
    | .DecodeGlobalType e => ErrInfo.shown e
    | .DecodeInit e => ErrInfo.shown e
  murky
    | .DecodeGlobalType e => ErrInfo.murky e
    | .DecodeInit e => ErrInfo.murky e

/-- src/decode/sections/global.rs:8-12 -/
inductive DecodeGlobalSectionError where
  | DecodeList (e : (DecodeListError DecodeGlobalError))
  deriving DecidableEq, Repr

/-- attributes at src/decode/sections/global.rs:8-12 -/
instance : ErrInfo DecodeGlobalSectionError where
  root
    | .DecodeList e => ErrInfo.root e
  shown
    | .DecodeList e => ErrInfo.shown e
  murky
    | .DecodeList e => ErrInfo.murky e

/-- src/decode/sections/import.rs:24-34 -/
inductive DecodeImportError where
  | DecodeModuleName (e : DecodeNameError)
  | DecodeItemName (e : DecodeNameError)
  | DecodeExternType (e : DecodeExternTypeError)
  deriving DecidableEq, Repr

/-- attributes at src/decode/sections/import.rs:24-34 -/
instance : ErrInfo DecodeImportError where
  root
    | .DecodeModuleName e => ErrInfo.root e
    | .DecodeItemName e => ErrInfo.root e
    | .DecodeExternType e => ErrInfo.root e
  shown
    | .DecodeModuleName _ => none
    | .DecodeItemName _ => none
    | .DecodeExternType e => ErrInfo.shown e
  murky
    | .DecodeModuleName e => ErrInfo.murky e
    | .DecodeItemName e => ErrInfo.murky e
    | .DecodeExternType e => ErrInfo.murky e

/-- src/decode/sections/import.rs:8-12 -/
inductive DecodeImportSectionError where
  | DecodeList (e : (DecodeListError DecodeImportError))
  deriving DecidableEq, Repr

/-- attributes at src/decode/sections/import.rs:8-12 -/
instance : ErrInfo DecodeImportSectionError where
  root
    | .DecodeList e => ErrInfo.root e
  shown
    | .DecodeList e => ErrInfo.shown e
  murky
    | .DecodeList e => ErrInfo.murky e

/-- src/decode/sections/memory.rs:7-11 -/
inductive DecodeMemorySectionError where
  | DecodeList (e : (DecodeListError DecodeMemoryTypeError))
  deriving DecidableEq, Repr

/-- attributes at src/decode/sections/memory.rs:7-11 -/
instance : ErrInfo DecodeMemorySectionError where
  root
    | .DecodeList e => ErrInfo.root e
  shown
    | .DecodeList e => ErrInfo.shown e
  murky
    | .DecodeList e => ErrInfo.murky e

/-- src/decode/sections/start.rs:6-8 -/
inductive DecodeStartSectionError where
  | mk (e : DecodeFuncIdxError)
  deriving DecidableEq, Repr

/-- attributes at src/decode/sections/start.rs:6-8 -/
instance : ErrInfo DecodeStartSectionError where
  root
    | .mk e => ErrInfo.root e
  shown
    | .mk e => ErrInfo.shown e
  murky
    | .mk e => ErrInfo.murky e

/-- src/decode/sections/table.rs:25-38 -/
inductive DecodeTableError where
  | Io (e : IoError)
  | UnexpectedMarkerByte (x : UInt8)
  | DecodeTableType (e : DecodeTableTypeError)
  | DecodeExpression (e : ParseExpressionError)
  deriving DecidableEq, Repr

/-- attributes at src/decode/sections/table.rs:25-38 -/
instance : ErrInfo DecodeTableError where
  root
    | .Io e => ErrInfo.root e
    | .UnexpectedMarkerByte _ => none
    | .DecodeTableType e => ErrInfo.root e
    | .DecodeExpression e => ErrInfo.root e
  shown
    | .Io e => ErrInfo.shown e
    | .UnexpectedMarkerByte _ => none
    | .DecodeTableType e => ErrInfo.shown e
    | .DecodeExpression e => ErrInfo.shown e
  murky
    | .Io e => ErrInfo.murky e
    | .UnexpectedMarkerByte _ => false
    | .DecodeTableType e => ErrInfo.murky e
    | .DecodeExpression e => ErrInfo.murky e

/-- src/decode/sections/table.rs:10-14 -/
inductive DecodeTableSectionError where
  | DecodeList (e : (DecodeListError DecodeTableError))
  deriving DecidableEq, Repr

/-- attributes at src/decode/sections/table.rs:10-14 -/
instance : ErrInfo DecodeTableSectionError where
  root
    | .DecodeList e => ErrInfo.root e
  shown
    | .DecodeList e => ErrInfo.shown e
  murky
    | .DecodeList e => ErrInfo.murky e

/-- src/decode/sections/tag.rs:7-11 -/
inductive DecodeTagSectionError where
  | DecodeList (e : (DecodeListError DecodeTagTypeError))
  deriving DecidableEq, Repr

/-- attributes at src/decode/sections/tag.rs:7-11 -/
instance : ErrInfo DecodeTagSectionError where
  root
    | .DecodeList e => ErrInfo.root e
  shown
    | .DecodeList e => ErrInfo.shown e
  murky
    | .DecodeList e => ErrInfo.murky e

/-- src/decode/sections/type.rs:7-11 -/
inductive DecodeTypeSectionError where
  | DecodeList (e : (DecodeListError DecodeRecTypeError))
  deriving DecidableEq, Repr

/-- attributes at src/decode/sections/type.rs:7-11 -/
instance : ErrInfo DecodeTypeSectionError where
  root
    | .DecodeList e => ErrInfo.root e
  shown
    | .DecodeList e => ErrInfo.shown e
  murky
    | .DecodeList e => ErrInfo.murky e

/-- src/decode/module.rs:76-78 -/
inductive InvalidSectionIdError where
  | mk (x : UInt8)
  deriving DecidableEq, Repr

/-- attributes at src/decode/module.rs:76-78 -/
instance : ErrInfo InvalidSectionIdError where
  root
    | .mk _ => none
  shown
    | .mk _ => none
  murky
    | .mk _ => false

/-- src/decode/module.rs:353-360 -/
inductive ParsePreambleError where
  | Io (e : IoError)
  | Unexpected (x : List UInt8)
  deriving DecidableEq, Repr

/-- attributes at src/decode/module.rs:353-360 -/
instance : ErrInfo ParsePreambleError where
  root
    | .Io e => ErrInfo.root e
    | .Unexpected _ => none
  shown
    | .Io e => ErrInfo.shown e
    | .Unexpected _ => none
  murky
    | .Io e => ErrInfo.murky e
    | .Unexpected _ => false

/-- src/decode/module.rs:373-383 -/
inductive DecodeSectionHeaderError where
  | ReadSectionIdByte (e : IoError)
  | InvalidSectionId (e : InvalidSectionIdError)
  | DecodeSectionSize (e : DecodeU32Error)
  deriving DecidableEq, Repr

/-- attributes at src/decode/module.rs:373-383 -/
instance : ErrInfo DecodeSectionHeaderError where
  root
    | .ReadSectionIdByte e => ErrInfo.root e
    | .InvalidSectionId e => ErrInfo.root e
    | .DecodeSectionSize e => ErrInfo.root e
  shown
    | .ReadSectionIdByte e => ErrInfo.shown e
    | .InvalidSectionId e => ErrInfo.shown e
    | .DecodeSectionSize e => ErrInfo.shown e
  murky
    | .ReadSectionIdByte e => ErrInfo.murky e
    | .InvalidSectionId e => ErrInfo.murky e
    | .DecodeSectionSize e => ErrInfo.murky e

/-- src/decode/module.rs:121-204 -/
inductive DecodeModuleError where
  | ParsePreamble (e : ParsePreambleError)
  | CodeFuncEntriesLenMismatch (codes_len : Nat) (funcs_len : Nat)
  | DataCountMismatch (datas_len : Nat) (data_count : UInt32)
  | SectionOutOfOrder (current : SectionKind) (previous : SectionKind)
  | DuplicateSection (x : SectionKind)
  | SectionSizeMismatch (section_kind : SectionKind) (declared : UInt32) (got : UInt64)
  | DataCountDatasLenMismatch (datas_len : Nat) (data_count : UInt32)
  | DecodeDataCount
  | DataIndexWithoutDataCount
  | DecodeSectionHeader (e : DecodeSectionHeaderError)
  | DecodeCustomSection (e : DecodeCustomSectionError)
  | DecodeTypeSection (e : DecodeTypeSectionError)
  | DecodeImportSection (e : DecodeImportSectionError)
  | DecodeFunctionSection (e : DecodeFunctionSectionError)
  | DecodeTableSection (e : DecodeTableSectionError)
  | DecodeMemorySection (e : DecodeMemorySectionError)
  | DecodeGlobalSection (e : DecodeGlobalSectionError)
  | DecodeExportSection (e : DecodeExportSectionError)
  | DecodeStartSection (e : DecodeStartSectionError)
  | DecodeElementSection (e : DecodeElementSectionError)
  | DecodeDatacountSection (e : DecodeDataCountSectionError)
  | DecodeCodeSection (e : DecodeCodeSectionError)
  | DecodeDataSection (e : DecodeDataSectionError)
  | DecodeTagSection (e : DecodeTagSectionError)
  deriving DecidableEq, Repr

/-- attributes at src/decode/module.rs:121-204 -/
instance : ErrInfo DecodeModuleError where
  root
    | .ParsePreamble e => ErrInfo.root e
    | .CodeFuncEntriesLenMismatch _ _ => none
    | .DataCountMismatch _ _ => none
    | .SectionOutOfOrder _ _ => none
    | .DuplicateSection _ => none
    | .SectionSizeMismatch _ _ _ => none
    | .DataCountDatasLenMismatch _ _ => none
    | .DecodeDataCount => none
    | .DataIndexWithoutDataCount => none
    | .DecodeSectionHeader e => ErrInfo.root e
    | .DecodeCustomSection e => ErrInfo.root e
    | .DecodeTypeSection e => ErrInfo.root e
    | .DecodeImportSection e => ErrInfo.root e
    | .DecodeFunctionSection e => ErrInfo.root e
    | .DecodeTableSection e => ErrInfo.root e
    | .DecodeMemorySection e => ErrInfo.root e
    | .DecodeGlobalSection e => ErrInfo.root e
    | .DecodeExportSection e => ErrInfo.root e
    | .DecodeStartSection e => ErrInfo.root e
    | .DecodeElementSection e => ErrInfo.root e
    | .DecodeDatacountSection e => ErrInfo.root e
    | .DecodeCodeSection e => ErrInfo.root e
    | .DecodeDataSection e => ErrInfo.root e
    | .DecodeTagSection e => ErrInfo.root e
  shown
    | .ParsePreamble e => ErrInfo.shown e
    | .CodeFuncEntriesLenMismatch _ _ => none
    | .DataCountMismatch _ _ => none
    | .SectionOutOfOrder _ _ => none
    | .DuplicateSection _ => none
    | .SectionSizeMismatch _ _ _ => none
    | .DataCountDatasLenMismatch _ _ => none
    | .DecodeDataCount => none
    | .DataIndexWithoutDataCount => none
    | .DecodeSectionHeader e => ErrInfo.shown e
    | .DecodeCustomSection e => ErrInfo.shown e
    | .DecodeTypeSection e => ErrInfo.shown e
    | .DecodeImportSection e => ErrInfo.shown e
    | .DecodeFunctionSection e => ErrInfo.shown e
    | .DecodeTableSection e => ErrInfo.shown e
    | .DecodeMemorySection e => ErrInfo.shown e
    | .DecodeGlobalSection e => ErrInfo.shown e
    | .DecodeExportSection e => ErrInfo.shown e
    | .DecodeStartSection e => ErrInfo.shown e
    | .DecodeElementSection e => ErrInfo.shown e
    | .DecodeDatacountSection e => ErrInfo.shown e
    | .DecodeCodeSection e => ErrInfo.shown e
    | .DecodeDataSection e => ErrInfo.shown e
    | .DecodeTagSection e => ErrInfo.shown e
  murky
    | .ParsePreamble e => ErrInfo.murky e
    | .CodeFuncEntriesLenMismatch _ _ => false
    | .DataCountMismatch _ _ => false
    | .SectionOutOfOrder _ _ => false
    | .DuplicateSection _ => false
    | .SectionSizeMismatch _ _ _ => false
    | .DataCountDatasLenMismatch _ _ => false
    | .DecodeDataCount => false
    | .DataIndexWithoutDataCount => false
    | .DecodeSectionHeader e => ErrInfo.murky e
    | .DecodeCustomSection e => ErrInfo.murky e
    | .DecodeTypeSection e => ErrInfo.murky e
    | .DecodeImportSection e => ErrInfo.murky e
    | .DecodeFunctionSection e => ErrInfo.murky e
    | .DecodeTableSection e => ErrInfo.murky e
    | .DecodeMemorySection e => ErrInfo.murky e
    | .DecodeGlobalSection e => ErrInfo.murky e
    | .DecodeExportSection e => ErrInfo.murky e
    | .DecodeStartSection e => ErrInfo.murky e
    | .DecodeElementSection e => ErrInfo.murky e
    | .DecodeDatacountSection e => ErrInfo.murky e
    | .DecodeCodeSection e => ErrInfo.murky e
    | .DecodeDataSection e => ErrInfo.murky e
    | .DecodeTagSection e => ErrInfo.murky e

end Wadec
