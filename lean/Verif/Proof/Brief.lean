import Verif.Proof.Lines

/-! Generated by tools/gen_brief.py: how many messages an error has, and that each is one line (C67).
One instance of `Brief` and one of `Lined` per error type, in the order of Model/Display.lean. -/

set_option linter.unusedVariables false

namespace Wadec

open Spec

instance : Brief DecodeU32Error where
  own := 0
  brief io k e h1 hk := match e with
    | .TooLarge => Brief.leaf h1
    | .RepresentationTooLong => Brief.leaf h1
    | .Io e => Brief.same (e := e) h1 hk (by decide)

instance : Lined DecodeU32Error where
  line io e h := match e with
    | .TooLarge => Lined.leaf (OneLine.lit ['u', 'i', 'n', 't', '3', '2', ' ', 't', 'o', 'o', ' ', 'l', 'a', 'r', 'g', 'e'] rfl)
    | .RepresentationTooLong => Lined.leaf (OneLine.lit ['u', 'i', 'n', 't', '3', '2', ' ', 'r', 'e', 'p', 'r', 'e', 's', 'e', 'n', 't', 'a', 't', 'i', 'o', 'n', ' ', 't', 'o', 'o', ' ', 'l', 'o', 'n', 'g'] rfl)
    | .Io e => Lined.line io e h

instance : Brief DecodeU64Error where
  own := 0
  brief io k e h1 hk := match e with
    | .TooLarge => Brief.leaf h1
    | .RepresentationTooLong => Brief.leaf h1
    | .Io e => Brief.same (e := e) h1 hk (by decide)

instance : Lined DecodeU64Error where
  line io e h := match e with
    | .TooLarge => Lined.leaf (OneLine.lit ['u', 'i', 'n', 't', '6', '4', ' ', 't', 'o', 'o', ' ', 'l', 'a', 'r', 'g', 'e'] rfl)
    | .RepresentationTooLong => Lined.leaf (OneLine.lit ['u', 'i', 'n', 't', '6', '4', ' ', 'r', 'e', 'p', 'r', 'e', 's', 'e', 'n', 't', 'a', 't', 'i', 'o', 'n', ' ', 't', 'o', 'o', ' ', 'l', 'o', 'n', 'g'] rfl)
    | .Io e => Lined.line io e h

instance : Brief DecodeI32Error where
  own := 0
  brief io k e h1 hk := match e with
    | .TooLarge => Brief.leaf h1
    | .RepresentationTooLong => Brief.leaf h1
    | .Io e => Brief.same (e := e) h1 hk (by decide)

instance : Lined DecodeI32Error where
  line io e h := match e with
    | .TooLarge => Lined.leaf (OneLine.lit ['i', 'n', 't', '3', '2', ' ', 't', 'o', 'o', ' ', 'l', 'a', 'r', 'g', 'e'] rfl)
    | .RepresentationTooLong => Lined.leaf (OneLine.lit ['i', 'n', 't', '3', '2', ' ', 'r', 'e', 'p', 'r', 'e', 's', 'e', 'n', 't', 'a', 't', 'i', 'o', 'n', ' ', 't', 'o', 'o', ' ', 'l', 'o', 'n', 'g'] rfl)
    | .Io e => Lined.line io e h

instance : Brief DecodeI64Error where
  own := 0
  brief io k e h1 hk := match e with
    | .RepresentationTooLong => Brief.leaf h1
    | .IncorrectSignExtension => Brief.leaf h1
    | .Io e => Brief.same (e := e) h1 hk (by decide)

instance : Lined DecodeI64Error where
  line io e h := match e with
    | .RepresentationTooLong => Lined.leaf (OneLine.lit ['i', 'n', 't', '6', '4', ' ', 'r', 'e', 'p', 'r', 'e', 's', 'e', 'n', 't', 'a', 't', 'i', 'o', 'n', ' ', 't', 'o', 'o', ' ', 'l', 'o', 'n', 'g'] rfl)
    | .IncorrectSignExtension => Lined.leaf (OneLine.lit ['i', 'n', 't', '6', '4', ' ', 'i', 'n', 'c', 'o', 'r', 'r', 'e', 'c', 't', ' ', 's', 'i', 'g', 'n', ' ', 'e', 'x', 't', 'e', 'n', 's', 'i', 'o', 'n'] rfl)
    | .Io e => Lined.line io e h

instance : Brief DecodeS33Error where
  own := 0
  brief io k e h1 hk := match e with
    | .RepresentationTooLong => Brief.leaf h1
    | .IncorrectSignExtension => Brief.leaf h1
    | .Io e => Brief.same (e := e) h1 hk (by decide)

instance : Lined DecodeS33Error where
  line io e h := match e with
    | .RepresentationTooLong => Lined.leaf (OneLine.lit ['s', '3', '3', ' ', 'r', 'e', 'p', 'r', 'e', 's', 'e', 'n', 't', 'a', 't', 'i', 'o', 'n', ' ', 't', 'o', 'o', ' ', 'l', 'o', 'n', 'g'] rfl)
    | .IncorrectSignExtension => Lined.leaf (OneLine.lit ['s', '3', '3', ' ', 'i', 'n', 'c', 'o', 'r', 'r', 'e', 'c', 't', ' ', 's', 'i', 'g', 'n', ' ', 'e', 'x', 't', 'e', 'n', 's', 'i', 'o', 'n'] rfl)
    | .Io e => Lined.line io e h

instance : Brief DecodeLabelIdxError where
  own := 1
  brief io k e h1 hk := match e with
    | .mk e => Brief.cons (e := e) h1 hk (by decide)

instance : Lined DecodeLabelIdxError where
  line io e h := match e with
    | .mk e => Lined.cons h (OneLine.lit ['f', 'a', 'i', 'l', 'e', 'd', ' ', 'd', 'e', 'c', 'o', 'd', 'i', 'n', 'g', ' ', 'L', 'a', 'b', 'e', 'l', 'I', 'd', 'x', ' ', 'i', 'n', 'd', 'e', 'x'] rfl)

instance {E : Type} [ErrText E] [Brief E] : Brief (DecodeListError E) where
  own := Brief.own E + 1
  brief io k e h1 hk := match e with
    | .DecodeLength e => Brief.cons (e := e) h1 hk (Nat.lt_succ_of_le (Nat.zero_le _))
    | .ParseElement x0 e => Brief.cons (e := e) h1 hk (Nat.lt_succ_self _)

instance {E : Type} [ErrText E] [Lined E] : Lined (DecodeListError E) where
  line io e h := match e with
    | .DecodeLength e => Lined.cons h (OneLine.lit ['f', 'a', 'i', 'l', 'e', 'd', ' ', 'd', 'e', 'c', 'o', 'd', 'i', 'n', 'g', ' ', 'v', 'e', 'c', 't', 'o', 'r', ' ', 'l', 'e', 'n', 'g', 't', 'h'] rfl)
    | .ParseElement x0 e => Lined.cons h (OneLine.left (OneLine.lit ['f', 'a', 'i', 'l', 'e', 'd', ' ', 'p', 'a', 'r', 's', 'i', 'n', 'g', ' ', 'v', 'e', 'c', 't', 'o', 'r', ' ', 'e', 'l', 'e', 'm', 'e', 'n', 't', ' ', 'a', 't', ' ', 'p', 'o', 's', 'i', 't', 'i', 'o', 'n', ' '] rfl) (.nat _))

instance : Brief DecodeFuncIdxError where
  own := 1
  brief io k e h1 hk := match e with
    | .mk e => Brief.cons (e := e) h1 hk (by decide)

instance : Lined DecodeFuncIdxError where
  line io e h := match e with
    | .mk e => Lined.cons h (OneLine.lit ['f', 'a', 'i', 'l', 'e', 'd', ' ', 'd', 'e', 'c', 'o', 'd', 'i', 'n', 'g', ' ', 'F', 'u', 'n', 'c', 'I', 'd', 'x', ' ', 'i', 'n', 'd', 'e', 'x'] rfl)

instance : Brief DecodeTableIdxError where
  own := 1
  brief io k e h1 hk := match e with
    | .mk e => Brief.cons (e := e) h1 hk (by decide)

instance : Lined DecodeTableIdxError where
  line io e h := match e with
    | .mk e => Lined.cons h (OneLine.lit ['f', 'a', 'i', 'l', 'e', 'd', ' ', 'd', 'e', 'c', 'o', 'd', 'i', 'n', 'g', ' ', 'T', 'a', 'b', 'l', 'e', 'I', 'd', 'x', ' ', 'i', 'n', 'd', 'e', 'x'] rfl)

instance : Brief DecodeTypeIdxError where
  own := 1
  brief io k e h1 hk := match e with
    | .mk e => Brief.cons (e := e) h1 hk (by decide)

instance : Lined DecodeTypeIdxError where
  line io e h := match e with
    | .mk e => Lined.cons h (OneLine.lit ['f', 'a', 'i', 'l', 'e', 'd', ' ', 'd', 'e', 'c', 'o', 'd', 'i', 'n', 'g', ' ', 'T', 'y', 'p', 'e', 'I', 'd', 'x', ' ', 'i', 'n', 'd', 'e', 'x'] rfl)

instance : Brief DecodeTagIdxError where
  own := 1
  brief io k e h1 hk := match e with
    | .mk e => Brief.cons (e := e) h1 hk (by decide)

instance : Lined DecodeTagIdxError where
  line io e h := match e with
    | .mk e => Lined.cons h (OneLine.lit ['f', 'a', 'i', 'l', 'e', 'd', ' ', 'd', 'e', 'c', 'o', 'd', 'i', 'n', 'g', ' ', 'T', 'a', 'g', 'I', 'd', 'x', ' ', 'i', 'n', 'd', 'e', 'x'] rfl)

instance : Brief CatchError where
  own := 1
  brief io k e h1 hk := match e with
    | .ReadMarkerByte e => Brief.cons (e := e) h1 hk (by decide)
    | .InvalidMarkerByte x0 => Brief.leaf h1
    | .DecodeTagIdx e => Brief.same (e := e) h1 hk (by decide)
    | .DecodeLabelIdx e => Brief.same (e := e) h1 hk (by decide)

instance : Lined CatchError where
  line io e h := match e with
    | .ReadMarkerByte e => Lined.cons h (OneLine.lit ['f', 'a', 'i', 'l', 'e', 'd', ' ', 'r', 'e', 'a', 'd', 'i', 'n', 'g', ' ', 'c', 'a', 't', 'c', 'h', ' ', 'b', 'l', 'o', 'c', 'k', ' ', 'm', 'a', 'r', 'k', 'e', 'r', ' ', 'b', 'y', 't', 'e'] rfl)
    | .InvalidMarkerByte x0 => Lined.leaf (OneLine.left (OneLine.lit ['i', 'n', 'v', 'a', 'l', 'i', 'd', ' ', 'm', 'a', 'r', 'k', 'e', 'r', ' ', 'b', 'y', 't', 'e', ':', ' ', 'e', 'x', 'p', 'e', 'c', 't', 'e', 'd', ' ', '0', 'x', '0', '0', ',', ' ', '0', 'x', '0', '1', ',', ' ', '0', 'x', '0', '2', ' ', 'o', 'r', ' ', '0', 'x', '0', '3', ';', ' ', 'g', 'o', 't', ' '] rfl) (.hex04 _))
    | .DecodeTagIdx e => Lined.line io e h
    | .DecodeLabelIdx e => Lined.line io e h

instance : Brief BlockTypeError where
  own := 1
  brief io k e h1 hk := match e with
    | .ReadMarkerByte _ => Brief.leaf h1
    | .DecodeIndex e => Brief.cons (e := e) h1 hk (by decide)
    | .NegativeTypeIndex x0 => Brief.leaf h1

instance : Lined BlockTypeError where
  line io e h := match e with
    | .ReadMarkerByte _ => Lined.leaf (OneLine.lit ['f', 'a', 'i', 'l', 'e', 'd', ' ', 'r', 'e', 'a', 'd', 'i', 'n', 'g', ' ', 'b', 'l', 'o', 'c', 'k', ' ', 't', 'y', 'p', 'e', ' ', 'm', 'a', 'r', 'k', 'e', 'r', ' ', 'b', 'y', 't', 'e'] rfl)
    | .DecodeIndex e => Lined.cons h (OneLine.lit ['f', 'a', 'i', 'l', 'e', 'd', ' ', 'd', 'e', 'c', 'o', 'd', 'i', 'n', 'g', ' ', 'b', 'l', 'o', 'c', 'k', ' ', 't', 'y', 'p', 'e', ' ', 'i', 'n', 'd', 'e', 'x'] rfl)
    | .NegativeTypeIndex x0 => Lined.leaf (OneLine.left (OneLine.lit ['b', 'l', 'o', 'c', 'k', 't', 'y', 'p', 'e', ' ', 'T', 'y', 'p', 'e', ' ', 'i', 'n', 'd', 'e', 'x', ' ', 'n', 'e', 'g', 'a', 't', 'i', 'v', 'e', ':', ' '] rfl) (.int _))

instance : Brief DecodeHeapTypeError where
  own := 1
  brief io k e h1 hk := match e with
    | .ReadMarkerByte e => Brief.cons (e := e) h1 hk (by decide)
    | .DecodeTypeIndex e => Brief.cons (e := e) h1 hk (by decide)
    | .NegativeTypeIndex x0 => Brief.leaf h1

instance : Lined DecodeHeapTypeError where
  line io e h := match e with
    | .ReadMarkerByte e => Lined.cons h (OneLine.lit ['f', 'a', 'i', 'l', 'e', 'd', ' ', 'r', 'e', 'a', 'd', 'i', 'n', 'g', ' ', 'H', 'e', 'a', 'p', ' ', 't', 'y', 'p', 'e', ' ', 'm', 'a', 'r', 'k', 'e', 'r', ' ', 'b', 'y', 't', 'e'] rfl)
    | .DecodeTypeIndex e => Lined.cons h (OneLine.lit ['f', 'a', 'i', 'l', 'e', 'd', ' ', 'd', 'e', 'c', 'o', 'd', 'i', 'n', 'g', ' ', 't', 'y', 'p', 'e', ' ', 'i', 'n', 'd', 'e', 'x'] rfl)
    | .NegativeTypeIndex x0 => Lined.leaf (OneLine.left (OneLine.lit ['t', 'y', 'p', 'e', ' ', 'i', 'n', 'd', 'e', 'x', ' ', 'n', 'e', 'g', 'a', 't', 'i', 'v', 'e', ':', ' '] rfl) (.int _))

instance : Brief ControlError where
  own := 3
  brief io k e h1 hk := match e with
    | .LabelIdx e => Brief.cons (e := e) h1 hk (by decide)
    | .DecodeLabelIdxVector e => Brief.cons (e := e) h1 hk (by decide)
    | .FuncIdx _ => Brief.leaf h1
    | .TableIdx _ => Brief.leaf h1
    | .TypeIdx _ => Brief.leaf h1
    | .TagIdx _ => Brief.leaf h1
    | .DecodeCatchListError e => Brief.cons (e := e) h1 hk (by decide)
    | .BlockType _ => Brief.leaf h1
    | .UnexpectedElse => Brief.leaf h1
    | .ReadCastNullabilityMarker _ => Brief.leaf h1
    | .InvalidCastNullabilityMarker x0 => Brief.leaf h1
    | .HeapType e => Brief.cons (e := e) h1 hk (by decide)

instance : Lined ControlError where
  line io e h := match e with
    | .LabelIdx e => Lined.cons h (OneLine.lit ['f', 'a', 'i', 'l', 'e', 'd', ' ', 'd', 'e', 'c', 'o', 'd', 'i', 'n', 'g', ' ', 'l', 'a', 'b', 'e', 'l', ' ', 'i', 'n', 'd', 'e', 'x'] rfl)
    | .DecodeLabelIdxVector e => Lined.cons h (OneLine.lit ['f', 'a', 'i', 'l', 'e', 'd', ' ', 'd', 'e', 'c', 'o', 'd', 'i', 'n', 'g', ' ', 'l', 'a', 'b', 'e', 'l', ' ', 'i', 'n', 'd', 'e', 'x'] rfl)
    | .FuncIdx _ => Lined.leaf (OneLine.lit ['f', 'a', 'i', 'l', 'e', 'd', ' ', 'd', 'e', 'c', 'o', 'd', 'i', 'n', 'g', ' ', 'f', 'u', 'n', 'c', 't', 'i', 'o', 'n', ' ', 'i', 'n', 'd', 'e', 'x'] rfl)
    | .TableIdx _ => Lined.leaf (OneLine.lit ['f', 'a', 'i', 'l', 'e', 'd', ' ', 'd', 'e', 'c', 'o', 'd', 'i', 'n', 'g', ' ', 't', 'a', 'b', 'l', 'e', ' ', 'i', 'n', 'd', 'e', 'x'] rfl)
    | .TypeIdx _ => Lined.leaf (OneLine.lit ['f', 'a', 'i', 'l', 'e', 'd', ' ', 'd', 'e', 'c', 'o', 'd', 'i', 'n', 'g', ' ', 't', 'y', 'p', 'e', ' ', 'i', 'n', 'd', 'e', 'x'] rfl)
    | .TagIdx _ => Lined.leaf (OneLine.lit ['f', 'a', 'i', 'l', 'e', 'd', ' ', 'd', 'e', 'c', 'o', 'd', 'i', 'n', 'g', ' ', 't', 'a', 'g', ' ', 'i', 'n', 'd', 'e', 'x'] rfl)
    | .DecodeCatchListError e => Lined.cons h (OneLine.lit ['f', 'a', 'i', 'l', 'e', 'd', ' ', 'd', 'e', 'c', 'o', 'd', 'i', 'n', 'g', ' ', 'C', 'a', 't', 'c', 'h', ' ', 'l', 'i', 's', 't'] rfl)
    | .BlockType _ => Lined.leaf (OneLine.lit ['f', 'a', 'i', 'l', 'e', 'd', ' ', 'd', 'e', 'c', 'o', 'd', 'i', 'n', 'g', ' ', 'b', 'l', 'o', 'c', 'k', ' ', 't', 'y', 'p', 'e'] rfl)
    | .UnexpectedElse => Lined.leaf (OneLine.lit ['u', 'n', 'e', 'x', 'p', 'e', 'c', 't', 'e', 'd', ' ', '`', 'E', 'l', 's', 'e', '`', ' ', 't', 'o', 'k', 'e', 'n'] rfl)
    | .ReadCastNullabilityMarker _ => Lined.leaf (OneLine.lit ['f', 'a', 'i', 'l', 'e', 'd', ' ', 'd', 'e', 'c', 'o', 'd', 'i', 'n', 'g', ' ', 'n', 'u', 'l', 'l', 'a', 'b', 'i', 'l', 'i', 't', 'y', ' ', 'f', 'o', 'r', ' ', 'c', 'a', 's', 't', ' ', 'o', 'p', 'e', 'r', 'a', 't', 'i', 'o', 'n'] rfl)
    | .InvalidCastNullabilityMarker x0 => Lined.leaf (OneLine.left (OneLine.lit ['i', 'n', 'v', 'a', 'l', 'i', 'd', ' ', 'c', 'a', 's', 't', ' ', 'o', 'p', 'e', 'r', 'a', 't', 'i', 'o', 'n', ' ', 'm', 'a', 'r', 'k', 'e', 'r', ' ', 'b', 'y', 't', 'e', ':', ' ', 'e', 'x', 'p', 'e', 'c', 't', 'e', 'd', ' ', '0', 'x', '0', '0', ',', ' ', '0', 'x', '0', '1', ',', ' ', '0', 'x', '0', '2', ' ', 'o', 'r', ' ', '0', 'x', '0', '3', ';', ' ', 'g', 'o', 't', ' '] rfl) (.hex04 _))
    | .HeapType e => Lined.cons h (OneLine.lit ['f', 'a', 'i', 'l', 'e', 'd', ' ', 'd', 'e', 'c', 'o', 'd', 'i', 'n', 'g', ' ', 'h', 'e', 'a', 'p', ' ', 't', 'y', 'p', 'e', ' ', 'f', 'o', 'r', ' ', 'c', 'a', 's', 't', ' ', 'o', 'p', 'e', 'r', 'a', 't', 'i', 'o', 'n'] rfl)

instance : Brief ReferenceError where
  own := 0
  brief io k e h1 hk := match e with
    | .HeapType _ => Brief.leaf h1
    | .FuncIdx _ => Brief.leaf h1
    | .ReadSubOpcode _ => Brief.leaf h1

instance : Lined ReferenceError where
  line io e h := match e with
    | .HeapType _ => Lined.leaf (OneLine.lit ['f', 'a', 'i', 'l', 'e', 'd', ' ', 'd', 'e', 'c', 'o', 'd', 'i', 'n', 'g', ' ', 'h', 'e', 'a', 'p', ' ', 't', 'y', 'p', 'e'] rfl)
    | .FuncIdx _ => Lined.leaf (OneLine.lit ['f', 'a', 'i', 'l', 'e', 'd', ' ', 'd', 'e', 'c', 'o', 'd', 'i', 'n', 'g', ' ', 'f', 'u', 'n', 'c', 't', 'i', 'o', 'n', ' ', 'i', 'n', 'd', 'e', 'x'] rfl)
    | .ReadSubOpcode _ => Lined.leaf (OneLine.lit ['f', 'a', 'i', 'l', 'e', 'd', ' ', 'r', 'e', 'a', 'd', 'i', 'n', 'g', ' ', 's', 'u', 'b', '-', 'o', 'p', 'c', 'o', 'd', 'e'] rfl)

instance : Brief DecodeDataIdxError where
  own := 1
  brief io k e h1 hk := match e with
    | .mk e => Brief.cons (e := e) h1 hk (by decide)

instance : Lined DecodeDataIdxError where
  line io e h := match e with
    | .mk e => Lined.cons h (OneLine.lit ['f', 'a', 'i', 'l', 'e', 'd', ' ', 'd', 'e', 'c', 'o', 'd', 'i', 'n', 'g', ' ', 'D', 'a', 't', 'a', 'I', 'd', 'x', ' ', 'i', 'n', 'd', 'e', 'x'] rfl)

instance : Brief DecodeElemIdxError where
  own := 1
  brief io k e h1 hk := match e with
    | .mk e => Brief.cons (e := e) h1 hk (by decide)

instance : Lined DecodeElemIdxError where
  line io e h := match e with
    | .mk e => Lined.cons h (OneLine.lit ['f', 'a', 'i', 'l', 'e', 'd', ' ', 'd', 'e', 'c', 'o', 'd', 'i', 'n', 'g', ' ', 'E', 'l', 'e', 'm', 'I', 'd', 'x', ' ', 'i', 'n', 'd', 'e', 'x'] rfl)

instance : Brief AggregateError where
  own := 0
  brief io k e h1 hk := match e with
    | .TypeIdx _ => Brief.leaf h1
    | .FieldIndex _ => Brief.leaf h1
    | .DataIdx _ => Brief.leaf h1
    | .ElemIdx _ => Brief.leaf h1
    | .ArrayFixedLength _ => Brief.leaf h1

instance : Lined AggregateError where
  line io e h := match e with
    | .TypeIdx _ => Lined.leaf (OneLine.lit ['f', 'a', 'i', 'l', 'e', 'd', ' ', 'd', 'e', 'c', 'o', 'd', 'i', 'n', 'g', ' ', 't', 'y', 'p', 'e', ' ', 'i', 'n', 'd', 'e', 'x'] rfl)
    | .FieldIndex _ => Lined.leaf (OneLine.lit ['f', 'a', 'i', 'l', 'e', 'd', ' ', 'd', 'e', 'c', 'o', 'd', 'i', 'n', 'g', ' ', 'f', 'i', 'e', 'l', 'd', ' ', 'i', 'n', 'd', 'e', 'x'] rfl)
    | .DataIdx _ => Lined.leaf (OneLine.lit ['f', 'a', 'i', 'l', 'e', 'd', ' ', 'd', 'e', 'c', 'o', 'd', 'i', 'n', 'g', ' ', 'd', 'a', 't', 'a', ' ', 'i', 'n', 'd', 'e', 'x'] rfl)
    | .ElemIdx _ => Lined.leaf (OneLine.lit ['f', 'a', 'i', 'l', 'e', 'd', ' ', 'd', 'e', 'c', 'o', 'd', 'i', 'n', 'g', ' ', 'e', 'l', 'e', 'm', 'e', 'n', 't', ' ', 'i', 'n', 'd', 'e', 'x'] rfl)
    | .ArrayFixedLength _ => Lined.leaf (OneLine.lit ['f', 'a', 'i', 'l', 'e', 'd', ' ', 'd', 'e', 'c', 'o', 'd', 'i', 'n', 'g', ' ', 'a', 'r', 'r', 'a', 'y', ' ', 'f', 'i', 'x', 'e', 'd', ' ', 'l', 'e', 'n', 'g', 't', 'h'] rfl)

instance : Brief InvalidAbsHeapTypeMarkerError where
  own := 0
  brief io k e h1 hk := match e with
    | .mk x0 => Brief.leaf h1

instance : Lined InvalidAbsHeapTypeMarkerError where
  line io e h := match e with
    | .mk x0 => Lined.leaf (OneLine.left (OneLine.left (OneLine.left (OneLine.lit ['i', 'n', 'v', 'a', 'l', 'i', 'd', ' ', 'A', 'b', 's', 'H', 'e', 'a', 'p', 'T', 'y', 'p', 'e', ' ', 'm', 'a', 'r', 'k', 'e', 'r', ' ', 'b', 'y', 't', 'e', ' ', '-', ' ', 'e', 'x', 'p', 'e', 'c', 't', 'e', 'd', ' ', 'o', 'n', 'e', ' ', 'o', 'f', ' '] rfl) (.markers NoBreak.heap)) (.lit [';', ' ', 'g', 'o', 't', ' '] rfl)) (.hex04 _))

instance : Brief DecodeAbsHeapTypeError where
  own := 1
  brief io k e h1 hk := match e with
    | .ReadMarkerByte e => Brief.cons (e := e) h1 hk (by decide)
    | .InvalidMarkerByte e => Brief.same (e := e) h1 hk (by decide)

instance : Lined DecodeAbsHeapTypeError where
  line io e h := match e with
    | .ReadMarkerByte e => Lined.cons h (OneLine.lit ['f', 'a', 'i', 'l', 'e', 'd', ' ', 'r', 'e', 'a', 'd', 'i', 'n', 'g', ' ', 'H', 'e', 'a', 'p', ' ', 't', 'y', 'p', 'e', ' ', 'm', 'a', 'r', 'k', 'e', 'r', ' ', 'b', 'y', 't', 'e'] rfl)
    | .InvalidMarkerByte e => Lined.line io e h

instance : Brief DecodeRefTypeError where
  own := 1
  brief io k e h1 hk := match e with
    | .Io e => Brief.same (e := e) h1 hk (by decide)
    | .DecodeHeapType e => Brief.same (e := e) h1 hk (by decide)
    | .InvalidMarkerByte e => Brief.same (e := e) h1 hk (by decide)

instance : Lined DecodeRefTypeError where
  line io e h := match e with
    | .Io e => Lined.line io e h
    | .DecodeHeapType e => Lined.line io e h
    | .InvalidMarkerByte e => Lined.line io e h

instance : Brief DecodeValTypeError where
  own := 1
  brief io k e h1 hk := match e with
    | .Io e => Brief.same (e := e) h1 hk (by decide)
    | .DecodeRefType e => Brief.same (e := e) h1 hk (by decide)

instance : Lined DecodeValTypeError where
  line io e h := match e with
    | .Io e => Lined.line io e h
    | .DecodeRefType e => Lined.line io e h

instance : Brief ParametricError where
  own := 3
  brief io k e h1 hk := match e with
    | .DecodeList e => Brief.cons (e := e) h1 hk (by decide)

instance : Lined ParametricError where
  line io e h := match e with
    | .DecodeList e => Lined.cons h (OneLine.lit ['f', 'a', 'i', 'l', 'e', 'd', ' ', 'd', 'e', 'c', 'o', 'd', 'i', 'n', 'g', ' ', 'v', 'a', 'l', 'u', 'e', ' ', 't', 'y', 'p', 'e', ' ', 'v', 'e', 'c', 't', 'o', 'r'] rfl)

instance : Brief DecodeLocalIdxError where
  own := 1
  brief io k e h1 hk := match e with
    | .mk e => Brief.cons (e := e) h1 hk (by decide)

instance : Lined DecodeLocalIdxError where
  line io e h := match e with
    | .mk e => Lined.cons h (OneLine.lit ['f', 'a', 'i', 'l', 'e', 'd', ' ', 'd', 'e', 'c', 'o', 'd', 'i', 'n', 'g', ' ', 'L', 'o', 'c', 'a', 'l', 'I', 'd', 'x', ' ', 'i', 'n', 'd', 'e', 'x'] rfl)

instance : Brief DecodeGlobalIdxError where
  own := 1
  brief io k e h1 hk := match e with
    | .mk e => Brief.cons (e := e) h1 hk (by decide)

instance : Lined DecodeGlobalIdxError where
  line io e h := match e with
    | .mk e => Lined.cons h (OneLine.lit ['f', 'a', 'i', 'l', 'e', 'd', ' ', 'd', 'e', 'c', 'o', 'd', 'i', 'n', 'g', ' ', 'G', 'l', 'o', 'b', 'a', 'l', 'I', 'd', 'x', ' ', 'i', 'n', 'd', 'e', 'x'] rfl)

instance : Brief VariableError where
  own := 0
  brief io k e h1 hk := match e with
    | .LocalIdx _ => Brief.leaf h1
    | .GlobalIdx _ => Brief.leaf h1

instance : Lined VariableError where
  line io e h := match e with
    | .LocalIdx _ => Lined.leaf (OneLine.lit ['f', 'a', 'i', 'l', 'e', 'd', ' ', 'd', 'e', 'c', 'o', 'd', 'i', 'n', 'g', ' ', 'L', 'o', 'c', 'a', 'l', ' ', 'i', 'n', 'd', 'e', 'x'] rfl)
    | .GlobalIdx _ => Lined.leaf (OneLine.lit ['f', 'a', 'i', 'l', 'e', 'd', ' ', 'd', 'e', 'c', 'o', 'd', 'i', 'n', 'g', ' ', 'G', 'l', 'o', 'b', 'a', 'l', ' ', 'i', 'n', 'd', 'e', 'x'] rfl)

instance : Brief TableError where
  own := 0
  brief io k e h1 hk := match e with
    | .TableIdx _ => Brief.leaf h1
    | .ElemIdx _ => Brief.leaf h1

instance : Lined TableError where
  line io e h := match e with
    | .TableIdx _ => Lined.leaf (OneLine.lit ['f', 'a', 'i', 'l', 'e', 'd', ' ', 'd', 'e', 'c', 'o', 'd', 'i', 'n', 'g', ' ', 't', 'a', 'b', 'l', 'e', ' ', 'i', 'n', 'd', 'e', 'x'] rfl)
    | .ElemIdx _ => Lined.leaf (OneLine.lit ['f', 'a', 'i', 'l', 'e', 'd', ' ', 'd', 'e', 'c', 'o', 'd', 'i', 'n', 'g', ' ', 'e', 'l', 'e', 'm', 'e', 'n', 't', ' ', 'i', 'n', 'd', 'e', 'x'] rfl)

instance : Brief DecodeMemIdxError where
  own := 1
  brief io k e h1 hk := match e with
    | .mk e => Brief.cons (e := e) h1 hk (by decide)

instance : Lined DecodeMemIdxError where
  line io e h := match e with
    | .mk e => Lined.cons h (OneLine.lit ['f', 'a', 'i', 'l', 'e', 'd', ' ', 'd', 'e', 'c', 'o', 'd', 'i', 'n', 'g', ' ', 'M', 'e', 'm', 'I', 'd', 'x', ' ', 'i', 'n', 'd', 'e', 'x'] rfl)

instance : Brief MemargError where
  own := 2
  brief io k e h1 hk := match e with
    | .InvalidFlagsBit x0 => Brief.leaf h1
    | .Align _ => Brief.leaf h1
    | .Offset _ => Brief.leaf h1
    | .MemIdx e => Brief.cons (e := e) h1 hk (by decide)

instance : Lined MemargError where
  line io e h := match e with
    | .InvalidFlagsBit x0 => Lined.leaf (OneLine.left (OneLine.left (OneLine.lit ['I', 'n', 'v', 'a', 'l', 'i', 'd', ' ', 'a', 'l', 'i', 'g', 'n', 'm', 'e', 'n', 't', ' ', 'f', 'l', 'a', 'g', ' '] rfl) (.nat _)) (.lit [';', ' ', 's', 'h', 'o', 'u', 'l', 'd', ' ', 'b', 'e', ' ', 'l', 'e', 's', 's', ' ', 't', 'h', 'a', 'n', ' ', '2', '^', '7'] rfl))
    | .Align _ => Lined.leaf (OneLine.lit ['f', 'a', 'i', 'l', 'e', 'd', ' ', 'd', 'e', 'c', 'o', 'd', 'i', 'n', 'g', ' ', 'a', 'l', 'i', 'g', 'n', 'm', 'e', 'n', 't'] rfl)
    | .Offset _ => Lined.leaf (OneLine.lit ['f', 'a', 'i', 'l', 'e', 'd', ' ', 'd', 'e', 'c', 'o', 'd', 'i', 'n', 'g', ' ', 'o', 'f', 'f', 's', 'e', 't'] rfl)
    | .MemIdx e => Lined.cons h (OneLine.lit ['f', 'a', 'i', 'l', 'e', 'd', ' ', 'd', 'e', 'c', 'o', 'd', 'i', 'n', 'g', ' ', 'm', 'e', 'm', 'o', 'r', 'y', ' ', 'i', 'n', 'd', 'e', 'x'] rfl)

instance : Brief MemoryError where
  own := 0
  brief io k e h1 hk := match e with
    | .DecodeMemarg _ => Brief.leaf h1
    | .DecodeDataIdx _ => Brief.leaf h1
    | .DecodeMemIdx _ => Brief.leaf h1

instance : Lined MemoryError where
  line io e h := match e with
    | .DecodeMemarg _ => Lined.leaf (OneLine.lit ['f', 'a', 'i', 'l', 'e', 'd', ' ', 'd', 'e', 'c', 'o', 'd', 'i', 'n', 'g', ' ', 'M', 'e', 'm', 'a', 'r', 'g'] rfl)
    | .DecodeDataIdx _ => Lined.leaf (OneLine.lit ['f', 'a', 'i', 'l', 'e', 'd', ' ', 'd', 'e', 'c', 'o', 'd', 'i', 'n', 'g', ' ', 'd', 'a', 't', 'a', ' ', 'i', 'n', 'd', 'e', 'x'] rfl)
    | .DecodeMemIdx _ => Lined.leaf (OneLine.lit ['f', 'a', 'i', 'l', 'e', 'd', ' ', 'd', 'e', 'c', 'o', 'd', 'i', 'n', 'g', ' ', 'm', 'e', 'm', 'o', 'r', 'y', ' ', 'i', 'n', 'd', 'e', 'x'] rfl)

instance : Brief DecodeFloat32Error where
  own := 1
  brief io k e h1 hk := match e with
    | .ReadPayload e => Brief.cons (e := e) h1 hk (by decide)

instance : Lined DecodeFloat32Error where
  line io e h := match e with
    | .ReadPayload e => Lined.cons h (OneLine.lit ['f', 'a', 'i', 'l', 'e', 'd', ' ', 'r', 'e', 'a', 'd', 'i', 'n', 'g', ' ', '4', ' ', 'b', 'y', 't', 'e', 's', ' ', 'f', 'o', 'r', ' ', 'f', '3', '2'] rfl)

instance : Brief DecodeFloat64Error where
  own := 1
  brief io k e h1 hk := match e with
    | .ReadPayload e => Brief.cons (e := e) h1 hk (by decide)

instance : Lined DecodeFloat64Error where
  line io e h := match e with
    | .ReadPayload e => Lined.cons h (OneLine.lit ['f', 'a', 'i', 'l', 'e', 'd', ' ', 'r', 'e', 'a', 'd', 'i', 'n', 'g', ' ', '8', ' ', 'b', 'y', 't', 'e', 's', ' ', 'f', 'o', 'r', ' ', 'f', '6', '4'] rfl)

instance : Brief NumericError where
  own := 1
  brief io k e h1 hk := match e with
    | .ReadOpcode _ => Brief.leaf h1
    | .DecodeI32 e => Brief.same (e := e) h1 hk (by decide)
    | .DecodeI64 e => Brief.same (e := e) h1 hk (by decide)
    | .DecodeF32 e => Brief.same (e := e) h1 hk (by decide)
    | .DecodeF64 e => Brief.same (e := e) h1 hk (by decide)

instance : Lined NumericError where
  line io e h := match e with
    | .ReadOpcode _ => Lined.leaf (OneLine.lit ['f', 'a', 'i', 'l', 'e', 'd', ' ', 'r', 'e', 'a', 'd', 'i', 'n', 'g', ' ', '0', 'x', 'F', 'C', '-', 'p', 'r', 'e', 'f', 'i', 'x', 'e', 'd', ' ', 'n', 'u', 'm', 'e', 'r', 'i', 'c', ' ', 'o', 'p', 'c', 'o', 'd', 'e'] rfl)
    | .DecodeI32 e => Lined.line io e h
    | .DecodeI64 e => Lined.line io e h
    | .DecodeF32 e => Lined.line io e h
    | .DecodeF64 e => Lined.line io e h

instance : Brief LaneIdxError where
  own := 1
  brief io k e h1 hk := match e with
    | .mk e => Brief.cons (e := e) h1 hk (by decide)

instance : Lined LaneIdxError where
  line io e h := match e with
    | .mk e => Lined.cons h (OneLine.lit ['f', 'a', 'i', 'l', 'e', 'd', ' ', 'd', 'e', 'c', 'o', 'd', 'i', 'n', 'g', ' ', 'L', 'a', 'n', 'e', ' ', 'i', 'n', 'd', 'e', 'x'] rfl)

instance : Brief VectorError where
  own := 2
  brief io k e h1 hk := match e with
    | .ReadOpcode _ => Brief.leaf h1
    | .Memarg e => Brief.same (e := e) h1 hk (by decide)
    | .LaneIdx e => Brief.same (e := e) h1 hk (by decide)
    | .ReadImmediateBytes _ => Brief.leaf h1
    | .InvalidOpcode x0 => Brief.leaf h1

instance : Lined VectorError where
  line io e h := match e with
    | .ReadOpcode _ => Lined.leaf (OneLine.lit ['f', 'a', 'i', 'l', 'e', 'd', ' ', 'r', 'e', 'a', 'd', 'i', 'n', 'g', ' ', 'V', 'e', 'c', 't', 'o', 'r', ' ', 'o', 'p', 'c', 'o', 'd', 'e'] rfl)
    | .Memarg e => Lined.line io e h
    | .LaneIdx e => Lined.line io e h
    | .ReadImmediateBytes _ => Lined.leaf (OneLine.lit ['f', 'a', 'i', 'l', 'e', 'd', ' ', 'r', 'e', 'a', 'd', 'i', 'n', 'g', ' ', 'i', 'm', 'm', 'e', 'd', 'i', 'a', 't', 'e', ' ', 'b', 'y', 't', 'e', 's'] rfl)
    | .InvalidOpcode x0 => Lined.leaf (OneLine.left (OneLine.lit ['u', 'n', 'e', 'x', 'p', 'e', 'c', 't', 'e', 'd', ' ', 'V', 'e', 'c', 't', 'o', 'r', ' ', 'o', 'p', 'c', 'o', 'd', 'e', ':', ' '] rfl) (.hex04 _))

instance : Brief ParseError where
  own := 4
  brief io k e h1 hk := match e with
    | .ReadOpcode e => Brief.cons (e := e) h1 hk (by decide)
    | .Control e => Brief.cons (e := e) h1 hk (by decide)
    | .Reference e => Brief.cons (e := e) h1 hk (by decide)
    | .Aggregate e => Brief.cons (e := e) h1 hk (by decide)
    | .Parametric e => Brief.cons (e := e) h1 hk (by decide)
    | .Variable e => Brief.cons (e := e) h1 hk (by decide)
    | .Table e => Brief.cons (e := e) h1 hk (by decide)
    | .Memory e => Brief.cons (e := e) h1 hk (by decide)
    | .Numeric e => Brief.cons (e := e) h1 hk (by decide)
    | .Vector e => Brief.cons (e := e) h1 hk (by decide)
    | .InvalidOpcode x0 => Brief.leaf h1
    | .InvalidMarkerByteAfterFC x0 => Brief.leaf h1
    | .InvalidMarkerByteAfterFB x0 => Brief.leaf h1

instance : Lined ParseError where
  line io e h := match e with
    | .ReadOpcode e => Lined.cons h (OneLine.lit ['f', 'a', 'i', 'l', 'e', 'd', ' ', 'r', 'e', 'a', 'd', 'i', 'n', 'g', ' ', 'i', 'n', 's', 't', 'r', 'u', 'c', 't', 'i', 'o', 'n', ' ', 'o', 'p', 'c', 'o', 'd', 'e'] rfl)
    | .Control e => Lined.cons h (OneLine.lit ['f', 'a', 'i', 'l', 'e', 'd', ' ', 'd', 'e', 'c', 'o', 'd', 'i', 'n', 'g', ' ', 'c', 'o', 'n', 't', 'r', 'o', 'l', ' ', 'i', 'n', 's', 't', 'r', 'u', 'c', 't', 'i', 'o', 'n'] rfl)
    | .Reference e => Lined.cons h (OneLine.lit ['f', 'a', 'i', 'l', 'e', 'd', ' ', 'd', 'e', 'c', 'o', 'd', 'i', 'n', 'g', ' ', 'r', 'e', 'f', 'e', 'r', 'e', 'n', 'c', 'e', ' ', 'i', 'n', 's', 't', 'r', 'u', 'c', 't', 'i', 'o', 'n'] rfl)
    | .Aggregate e => Lined.cons h (OneLine.lit ['f', 'a', 'i', 'l', 'e', 'd', ' ', 'd', 'e', 'c', 'o', 'd', 'i', 'n', 'g', ' ', 'a', 'g', 'g', 'r', 'e', 'g', 'a', 't', 'e', ' ', 'i', 'n', 's', 't', 'r', 'u', 'c', 't', 'i', 'o', 'n'] rfl)
    | .Parametric e => Lined.cons h (OneLine.lit ['f', 'a', 'i', 'l', 'e', 'd', ' ', 'd', 'e', 'c', 'o', 'd', 'i', 'n', 'g', ' ', 'p', 'a', 'r', 'a', 'm', 'e', 't', 'r', 'i', 'c', ' ', 'i', 'n', 's', 't', 'r', 'u', 'c', 't', 'i', 'o', 'n'] rfl)
    | .Variable e => Lined.cons h (OneLine.lit ['f', 'a', 'i', 'l', 'e', 'd', ' ', 'd', 'e', 'c', 'o', 'd', 'i', 'n', 'g', ' ', 'v', 'a', 'r', 'i', 'a', 'b', 'l', 'e', ' ', 'i', 'n', 's', 't', 'r', 'u', 'c', 't', 'i', 'o', 'n'] rfl)
    | .Table e => Lined.cons h (OneLine.lit ['f', 'a', 'i', 'l', 'e', 'd', ' ', 'd', 'e', 'c', 'o', 'd', 'i', 'n', 'g', ' ', 't', 'a', 'b', 'l', 'e', ' ', 'i', 'n', 's', 't', 'r', 'u', 'c', 't', 'i', 'o', 'n'] rfl)
    | .Memory e => Lined.cons h (OneLine.lit ['f', 'a', 'i', 'l', 'e', 'd', ' ', 'd', 'e', 'c', 'o', 'd', 'i', 'n', 'g', ' ', 'm', 'e', 'm', 'o', 'r', 'y', ' ', 'i', 'n', 's', 't', 'r', 'u', 'c', 't', 'i', 'o', 'n'] rfl)
    | .Numeric e => Lined.cons h (OneLine.lit ['f', 'a', 'i', 'l', 'e', 'd', ' ', 'd', 'e', 'c', 'o', 'd', 'i', 'n', 'g', ' ', 'n', 'u', 'm', 'e', 'r', 'i', 'c', ' ', 'i', 'n', 's', 't', 'r', 'u', 'c', 't', 'i', 'o', 'n'] rfl)
    | .Vector e => Lined.cons h (OneLine.lit ['f', 'a', 'i', 'l', 'e', 'd', ' ', 'd', 'e', 'c', 'o', 'd', 'i', 'n', 'g', ' ', 'v', 'e', 'c', 't', 'o', 'r', ' ', 'i', 'n', 's', 't', 'r', 'u', 'c', 't', 'i', 'o', 'n'] rfl)
    | .InvalidOpcode x0 => Lined.leaf (OneLine.left (OneLine.lit ['u', 'n', 'e', 'x', 'p', 'e', 'c', 't', 'e', 'd', ' ', 'o', 'p', 'c', 'o', 'd', 'e', ':', ' '] rfl) (.hex04 _))
    | .InvalidMarkerByteAfterFC x0 => Lined.leaf (OneLine.left (OneLine.lit ['u', 'n', 'e', 'x', 'p', 'e', 'c', 't', 'e', 'd', ' ', 'o', 'p', 'c', 'o', 'd', 'e', ' ', 'a', 'f', 't', 'e', 'r', ' ', '0', 'x', 'F', 'C', ' ', 'm', 'a', 'r', 'k', 'e', 'r', ' ', 'b', 'y', 't', 'e', ':', ' '] rfl) (.hex04 _))
    | .InvalidMarkerByteAfterFB x0 => Lined.leaf (OneLine.left (OneLine.lit ['u', 'n', 'e', 'x', 'p', 'e', 'c', 't', 'e', 'd', ' ', 'o', 'p', 'c', 'o', 'd', 'e', ' ', 'a', 'f', 't', 'e', 'r', ' ', '0', 'x', 'F', 'B', ' ', 'm', 'a', 'r', 'k', 'e', 'r', ' ', 'b', 'y', 't', 'e', ':', ' '] rfl) (.hex04 _))

instance : Brief ParseExpressionError where
  own := 5
  brief io k e h1 hk := match e with
    | .ParseInstruction e => Brief.cons (e := e) h1 hk (by decide)
    | .UnexpectedElse => Brief.leaf h1

instance : Lined ParseExpressionError where
  line io e h := match e with
    | .ParseInstruction e => Lined.cons h (OneLine.lit ['f', 'a', 'i', 'l', 'e', 'd', ' ', 'p', 'a', 'r', 's', 'i', 'n', 'g', ' ', 'i', 'n', 's', 't', 'r', 'u', 'c', 't', 'i', 'o', 'n'] rfl)
    | .UnexpectedElse => Lined.leaf (OneLine.lit ['u', 'n', 'e', 'x', 'p', 'e', 'c', 't', 'e', 'd', ' ', 'E', 'l', 's', 'e', ' ', 'd', 'e', 'l', 'i', 'm', 'i', 't', 'e', 'r'] rfl)

instance : Brief DecodeByteVectorError where
  own := 1
  brief io k e h1 hk := match e with
    | .DecodeLength e => Brief.cons (e := e) h1 hk (by decide)
    | .ReadElements e => Brief.cons (e := e) h1 hk (by decide)

instance : Lined DecodeByteVectorError where
  line io e h := match e with
    | .DecodeLength e => Lined.cons h (OneLine.lit ['f', 'a', 'i', 'l', 'e', 'd', ' ', 'd', 'e', 'c', 'o', 'd', 'i', 'n', 'g', ' ', 'v', 'e', 'c', 't', 'o', 'r', ' ', 'l', 'e', 'n', 'g', 't', 'h'] rfl)
    | .ReadElements e => Lined.cons h (OneLine.lit ['f', 'a', 'i', 'l', 'e', 'd', ' ', 'r', 'e', 'a', 'd', 'i', 'n', 'g', ' ', 'v', 'e', 'c', 't', 'o', 'r', ' ', 'e', 'l', 'e', 'm', 'e', 'n', 't', 's'] rfl)

instance : Brief DecodeNameError where
  own := 1
  brief io k e h1 hk := match e with
    | .DecodeByteVector e => Brief.same (e := e) h1 hk (by decide)
    | .Utf8 e => Brief.same (e := e) h1 hk (by decide)

instance : Lined DecodeNameError where
  line io e h := match e with
    | .DecodeByteVector e => Lined.line io e h
    | .Utf8 e => Lined.line io e h

instance : Brief DecodeStorageTypeError where
  own := 2
  brief io k e h1 hk := match e with
    | .ReadMarkerByte e => Brief.same (e := e) h1 hk (by decide)
    | .DecodeValTypeOrPackType x0 e => Brief.cons (e := e) h1 hk (by decide)

instance : Lined DecodeStorageTypeError where
  line io e h := match e with
    | .ReadMarkerByte e => Lined.line io e h
    | .DecodeValTypeOrPackType x0 e => Lined.cons h (OneLine.left (OneLine.lit ['f', 'a', 'i', 'l', 'e', 'd', ' ', 'd', 'e', 'c', 'o', 'd', 'i', 'n', 'g', ' ', 'a', 's', ' ', 'e', 'i', 't', 'h', 'e', 'r', ' ', 'P', 'a', 'c', 'k', 'T', 'y', 'p', 'e', ' ', 'o', 'r', ' ', 'V', 'a', 'l', 'T', 'y', 'p', 'e', ' ', 'w', 'i', 't', 'h', ' ', 'm', 'a', 'r', 'k', 'e', 'r', ' ', 'b', 'y', 't', 'e', ' '] rfl) (.hex04 _))

instance : Brief InvalidMutabilityByteError where
  own := 0
  brief io k e h1 hk := match e with
    | .mk x0 => Brief.leaf h1

instance : Lined InvalidMutabilityByteError where
  line io e h := match e with
    | .mk x0 => Lined.leaf (OneLine.left (OneLine.left (OneLine.left (OneLine.lit ['i', 'n', 'v', 'a', 'l', 'i', 'd', ' ', 'M', 'u', 't', 'a', 'b', 'i', 'l', 'i', 't', 'y', ' ', 'm', 'a', 'r', 'k', 'e', 'r', ' ', 'b', 'y', 't', 'e', ' ', '-', ' ', 'e', 'x', 'p', 'e', 'c', 't', 'e', 'd', ' ', 'o', 'n', 'e', ' ', 'o', 'f', ' '] rfl) (.markers NoBreak.mut)) (.lit [';', ' ', 'g', 'o', 't', ' '] rfl)) (.hex04 _))

instance : Brief DecodeFieldTypeError where
  own := 2
  brief io k e h1 hk := match e with
    | .DecodeStorageType e => Brief.same (e := e) h1 hk (by decide)
    | .ReadMutabilityMarkerByte e => Brief.same (e := e) h1 hk (by decide)
    | .DecodeMutability e => Brief.same (e := e) h1 hk (by decide)

instance : Lined DecodeFieldTypeError where
  line io e h := match e with
    | .DecodeStorageType e => Lined.line io e h
    | .ReadMutabilityMarkerByte e => Lined.line io e h
    | .DecodeMutability e => Lined.line io e h

instance : Brief DecodeResultTypeError where
  own := 2
  brief io k e h1 hk := match e with
    | .DecodeList e => Brief.same (e := e) h1 hk (by decide)

instance : Lined DecodeResultTypeError where
  line io e h := match e with
    | .DecodeList e => Lined.line io e h

instance : Brief DecodeCompTypeError where
  own := 4
  brief io k e h1 hk := match e with
    | .ReadMarkerByte e => Brief.same (e := e) h1 hk (by decide)
    | .InvalidMarkerByte x0 => Brief.leaf h1
    | .DecodeStruct e => Brief.cons (e := e) h1 hk (by decide)
    | .DecodeFuncParameters _ => Brief.leaf h1
    | .DecodeFuncResults _ => Brief.leaf h1
    | .DecodeFieldType e => Brief.same (e := e) h1 hk (by decide)

instance : Lined DecodeCompTypeError where
  line io e h := match e with
    | .ReadMarkerByte e => Lined.line io e h
    | .InvalidMarkerByte x0 => Lined.leaf (OneLine.left (OneLine.lit ['u', 'n', 'e', 'x', 'p', 'e', 'c', 't', 'e', 'd', ' ', 'C', 'o', 'm', 'p', 'T', 'y', 'p', 'e', ' ', 'm', 'a', 'r', 'k', 'e', 'r', ' ', 'b', 'y', 't', 'e', ':', ' ', 'e', 'x', 'p', 'e', 'c', 't', 'e', 'd', ' ', '0', 'x', '5', 'E', ',', ' ', '0', 'x', '5', 'F', ' ', 'o', 'r', ' ', '0', 'x', '6', '0', ';', ' ', 'g', 'o', 't', ' '] rfl) (.hex04 _))
    | .DecodeStruct e => Lined.cons h (OneLine.lit ['f', 'a', 'i', 'l', 'e', 'd', ' ', 'd', 'e', 'c', 'o', 'd', 'i', 'n', 'g', ' ', 'F', 'i', 'e', 'l', 'd', ' ', 't', 'y', 'p', 'e', ' ', 'l', 'i', 's', 't'] rfl)
    | .DecodeFuncParameters _ => Lined.leaf (OneLine.lit ['f', 'a', 'i', 'l', 'e', 'd', ' ', 'd', 'e', 'c', 'o', 'd', 'i', 'n', 'g', ' ', 'F', 'u', 'n', 'c', 't', 'i', 'o', 'n', ' ', 't', 'y', 'p', 'e', ' ', 'p', 'a', 'r', 'a', 'm', 'e', 't', 'e', 'r', 's'] rfl)
    | .DecodeFuncResults _ => Lined.leaf (OneLine.lit ['f', 'a', 'i', 'l', 'e', 'd', ' ', 'd', 'e', 'c', 'o', 'd', 'i', 'n', 'g', ' ', 'F', 'u', 'n', 'c', 't', 'i', 'o', 'n', ' ', 't', 'y', 'p', 'e', ' ', 'r', 'e', 's', 'u', 'l', 't', 's'] rfl)
    | .DecodeFieldType e => Lined.line io e h

instance : Brief InvalidPackTypeMarkerError where
  own := 0
  brief io k e h1 hk := match e with
    | .mk x0 => Brief.leaf h1

instance : Lined InvalidPackTypeMarkerError where
  line io e h := match e with
    | .mk x0 => Lined.leaf (OneLine.left (OneLine.left (OneLine.left (OneLine.lit ['i', 'n', 'v', 'a', 'l', 'i', 'd', ' ', 'P', 'a', 'c', 'k', 'T', 'y', 'p', 'e', ' ', 'm', 'a', 'r', 'k', 'e', 'r', ' ', 'b', 'y', 't', 'e', ' ', '-', ' ', 'e', 'x', 'p', 'e', 'c', 't', 'e', 'd', ' ', 'o', 'n', 'e', ' ', 'o', 'f', ' '] rfl) (.markers NoBreak.pack)) (.lit [';', ' ', 'g', 'o', 't', ' '] rfl)) (.hex04 _))

instance : Brief ParseLimitsError where
  own := 0
  brief io k e h1 hk := match e with
    | .ReadFlagByte _ => Brief.leaf h1
    | .UnexpectedFlagByte x0 => Brief.leaf h1
    | .ReadMinLimit _ => Brief.leaf h1
    | .ReadMaxLimit _ => Brief.leaf h1

instance : Lined ParseLimitsError where
  line io e h := match e with
    | .ReadFlagByte _ => Lined.leaf (OneLine.lit ['f', 'a', 'i', 'l', 'e', 'd', ' ', 'r', 'e', 'a', 'd', 'i', 'n', 'g', ' ', 'f', 'l', 'a', 'g', ' ', 'b', 'y', 't', 'e'] rfl)
    | .UnexpectedFlagByte x0 => Lined.leaf (OneLine.left (OneLine.lit ['u', 'n', 'e', 'x', 'p', 'e', 'c', 't', 'e', 'd', ' ', 'L', 'i', 'm', 'i', 't', 's', ' ', 'f', 'l', 'a', 'g', ' ', 'b', 'y', 't', 'e', ':', ' ', 'e', 'x', 'p', 'e', 'c', 't', 'e', 'd', ' ', '0', 'x', '0', '0', ',', ' ', '0', 'x', '0', '1', ',', ' ', '0', 'x', '0', '4', ' ', 'o', 'r', ' ', '0', 'x', '0', '5', ';', ' ', 'g', 'o', 't', ' '] rfl) (.hex04 _))
    | .ReadMinLimit _ => Lined.leaf (OneLine.lit ['f', 'a', 'i', 'l', 'e', 'd', ' ', 'r', 'e', 'a', 'd', 'i', 'n', 'g', ' ', 'm', 'i', 'n', 'i', 'm', 'u', 'm', ' ', 'l', 'i', 'm', 'i', 't'] rfl)
    | .ReadMaxLimit _ => Lined.leaf (OneLine.lit ['f', 'a', 'i', 'l', 'e', 'd', ' ', 'r', 'e', 'a', 'd', 'i', 'n', 'g', ' ', 'm', 'a', 'x', 'i', 'm', 'u', 'm', ' ', 'l', 'i', 'm', 'i', 't'] rfl)

instance : Brief DecodeTableTypeError where
  own := 1
  brief io k e h1 hk := match e with
    | .DecodeRefType e => Brief.same (e := e) h1 hk (by decide)
    | .DecodeLimits e => Brief.same (e := e) h1 hk (by decide)

instance : Lined DecodeTableTypeError where
  line io e h := match e with
    | .DecodeRefType e => Lined.line io e h
    | .DecodeLimits e => Lined.line io e h

instance : Brief DecodeMemoryTypeError where
  own := 1
  brief io k e h1 hk := match e with
    | .mk e => Brief.cons (e := e) h1 hk (by decide)

instance : Lined DecodeMemoryTypeError where
  line io e h := match e with
    | .mk e => Lined.cons h (OneLine.lit ['f', 'a', 'i', 'l', 'e', 'd', ' ', 'd', 'e', 'c', 'o', 'd', 'i', 'n', 'g', ' ', 'M', 'e', 'm', 'o', 'r', 'y', ' ', 't', 'y', 'p', 'e'] rfl)

instance : Brief DecodeGlobalTypeError where
  own := 2
  brief io k e h1 hk := match e with
    | .DecodeValueType e => Brief.cons (e := e) h1 hk (by decide)
    | .DecodeMutability _ => Brief.leaf h1
    | .InvalidMutability e => Brief.same (e := e) h1 hk (by decide)

instance : Lined DecodeGlobalTypeError where
  line io e h := match e with
    | .DecodeValueType e => Lined.cons h (OneLine.lit ['f', 'a', 'i', 'l', 'e', 'd', ' ', 'd', 'e', 'c', 'o', 'd', 'i', 'n', 'g', ' ', 'V', 'a', 'l', 'u', 'e', ' ', 't', 'y', 'p', 'e'] rfl)
    | .DecodeMutability _ => Lined.leaf (OneLine.lit ['f', 'a', 'i', 'l', 'e', 'd', ' ', 'd', 'e', 'c', 'o', 'd', 'i', 'n', 'g', ' ', 'M', 'u', 't', 'a', 'b', 'i', 'l', 'i', 't', 'y'] rfl)
    | .InvalidMutability e => Lined.line io e h

instance : Brief DecodeTagTypeError where
  own := 2
  brief io k e h1 hk := match e with
    | .ReadMarkerByte e => Brief.same (e := e) h1 hk (by decide)
    | .InvalidMarkerByte x0 => Brief.leaf h1
    | .DecodeTypeIndex e => Brief.cons (e := e) h1 hk (by decide)

instance : Lined DecodeTagTypeError where
  line io e h := match e with
    | .ReadMarkerByte e => Lined.line io e h
    | .InvalidMarkerByte x0 => Lined.leaf (OneLine.left (OneLine.left (OneLine.left (OneLine.lit ['u', 'n', 'e', 'x', 'p', 'e', 'c', 't', 'e', 'd', ' ', 'T', 'a', 'g', 'T', 'y', 'p', 'e', ' ', 'm', 'a', 'r', 'k', 'e', 'r', ' ', 'b', 'y', 't', 'e', ':', ' ', 'e', 'x', 'p', 'e', 'c', 't', 'e', 'd', ' '] rfl) (.hex04 _)) (.lit [';', ' ', 'g', 'o', 't', ' '] rfl)) (.hex04 _))
    | .DecodeTypeIndex e => Lined.cons h (OneLine.lit ['f', 'a', 'i', 'l', 'e', 'd', ' ', 'd', 'e', 'c', 'o', 'd', 'i', 'n', 'g', ' ', 'T', 'a', 'g', ' ', 't', 'y', 'p', 'e'] rfl)

instance : Brief DecodeExternTypeError where
  own := 2
  brief io k e h1 hk := match e with
    | .ReadMarkerByte e => Brief.same (e := e) h1 hk (by decide)
    | .InvalidMarkerByte x0 => Brief.leaf h1
    | .DecodeTypeIndex e => Brief.same (e := e) h1 hk (by decide)
    | .DecodeTableType e => Brief.same (e := e) h1 hk (by decide)
    | .DecodeMemoryType e => Brief.same (e := e) h1 hk (by decide)
    | .DecodeGlobalType e => Brief.same (e := e) h1 hk (by decide)
    | .DecodeTagType e => Brief.same (e := e) h1 hk (by decide)

instance : Lined DecodeExternTypeError where
  line io e h := match e with
    | .ReadMarkerByte e => Lined.line io e h
    | .InvalidMarkerByte x0 => Lined.leaf (OneLine.left (OneLine.lit ['u', 'n', 'e', 'x', 'p', 'e', 'c', 't', 'e', 'd', ' ', 'E', 'x', 't', 'e', 'r', 'n', 'T', 'y', 'p', 'e', ' ', 'm', 'a', 'r', 'k', 'e', 'r', ' ', 'b', 'y', 't', 'e', ':', ' ', 'e', 'x', 'p', 'e', 'c', 't', 'e', 'd', ' ', '0', 'x', '0', '0', ',', ' ', '0', 'x', '0', '1', ',', ' ', '0', 'x', '0', '2', ',', ' ', '0', 'x', '0', '3', ' ', 'o', 'r', ' ', '0', 'x', '0', '4', ';', ' ', 'g', 'o', 't', ' '] rfl) (.hex04 _))
    | .DecodeTypeIndex e => Lined.line io e h
    | .DecodeTableType e => Lined.line io e h
    | .DecodeMemoryType e => Lined.line io e h
    | .DecodeGlobalType e => Lined.line io e h
    | .DecodeTagType e => Lined.line io e h

instance : Brief DecodeSubTypeError where
  own := 5
  brief io k e h1 hk := match e with
    | .Io e => Brief.same (e := e) h1 hk (by decide)
    | .DecodeSupertypes e => Brief.cons (e := e) h1 hk (by decide)
    | .DecodeCompType e => Brief.cons (e := e) h1 hk (by decide)

instance : Lined DecodeSubTypeError where
  line io e h := match e with
    | .Io e => Lined.line io e h
    | .DecodeSupertypes e => Lined.cons h (OneLine.lit ['f', 'a', 'i', 'l', 'e', 'd', ' ', 'd', 'e', 'c', 'o', 'd', 'i', 'n', 'g', ' ', 's', 'u', 'p', 'e', 'r', 't', 'y', 'p', 'e', 's'] rfl)
    | .DecodeCompType e => Lined.cons h (OneLine.lit ['f', 'a', 'i', 'l', 'e', 'd', ' ', 'd', 'e', 'c', 'o', 'd', 'i', 'n', 'g', ' ', 'r', 'e', 'c', 'u', 'r', 's', 'i', 'v', 'e', ' ', 's', 'u', 'b', 't', 'y', 'p', 'e'] rfl)

instance : Brief DecodeRecTypeError where
  own := 7
  brief io k e h1 hk := match e with
    | .Io e => Brief.same (e := e) h1 hk (by decide)
    | .DecodeSubtypes e => Brief.cons (e := e) h1 hk (by decide)
    | .DecodeSubtype e => Brief.cons (e := e) h1 hk (by decide)

instance : Lined DecodeRecTypeError where
  line io e h := match e with
    | .Io e => Lined.line io e h
    | .DecodeSubtypes e => Lined.cons h (OneLine.lit ['f', 'a', 'i', 'l', 'e', 'd', ' ', 'd', 'e', 'c', 'o', 'd', 'i', 'n', 'g', ' ', 's', 'u', 'b', 't', 'y', 'p', 'e', 's', ' ', 'l', 'i', 's', 't'] rfl)
    | .DecodeSubtype e => Lined.cons h (OneLine.lit ['f', 'a', 'i', 'l', 'e', 'd', ' ', 'd', 'e', 'c', 'o', 'd', 'i', 'n', 'g', ' ', 's', 'u', 'b', 't', 'y', 'p', 'e'] rfl)

instance : Brief DecodeCodeLocalsError where
  own := 2
  brief io k e h1 hk := match e with
    | .DecodeLocalsCount _ => Brief.leaf h1
    | .LocalsCountOutOfBound x0 x1 => Brief.leaf h1
    | .DecodeLocalValType e => Brief.cons (e := e) h1 hk (by decide)

instance : Lined DecodeCodeLocalsError where
  line io e h := match e with
    | .DecodeLocalsCount _ => Lined.leaf (OneLine.lit ['f', 'a', 'i', 'l', 'e', 'd', ' ', 'd', 'e', 'c', 'o', 'd', 'i', 'n', 'g', ' ', 'c', 'o', 'u', 'n', 't', ' ', 'o', 'f', ' ', 'f', 'u', 'n', 'c', 't', 'i', 'o', 'n', ' ', 'l', 'o', 'c', 'a', 'l', 's'] rfl)
    | .LocalsCountOutOfBound x0 x1 => Lined.leaf (OneLine.left (OneLine.left (OneLine.left (OneLine.lit ['t', 'o', 'o', ' ', 'm', 'a', 'n', 'y', ' ', 'l', 'o', 'c', 'a', 'l', 's', ':', ' ', 'e', 'x', 'p', 'e', 'c', 't', 'e', 'd', ' ', 'a', 't', ' ', 'm', 'o', 's', 't', ' '] rfl) (.nat _)) (.lit [';', ' ', 'g', 'o', 't', ' '] rfl)) (.nat _))
    | .DecodeLocalValType e => Lined.cons h (OneLine.lit ['f', 'a', 'i', 'l', 'e', 'd', ' ', 'd', 'e', 'c', 'o', 'd', 'i', 'n', 'g', ' ', 'l', 'o', 'c', 'a', 'l', ' ', 'V', 'a', 'l', 'u', 'e', ' ', 't', 'y', 'p', 'e'] rfl)

instance : Brief DecodeCodeError where
  own := 6
  brief io k e h1 hk := match e with
    | .DecodeFunctionSize _ => Brief.leaf h1
    | .DecodeLocalsVector e => Brief.cons (e := e) h1 hk (by decide)
    | .DecodeFunctionBody e => Brief.cons (e := e) h1 hk (by decide)
    | .EntrySizeMismatch x0 x1 x2 => Brief.leaf h1

instance : Lined DecodeCodeError where
  line io e h := match e with
    | .DecodeFunctionSize _ => Lined.leaf (OneLine.lit ['f', 'a', 'i', 'l', 'e', 'd', ' ', 'd', 'e', 'c', 'o', 'd', 'i', 'n', 'g', ' ', 's', 'i', 'z', 'e', ' ', 'o', 'f', ' ', 'f', 'u', 'n', 'c', 't', 'i', 'o', 'n', ' ', 'c', 'o', 'd', 'e'] rfl)
    | .DecodeLocalsVector e => Lined.cons h (OneLine.lit ['f', 'a', 'i', 'l', 'e', 'd', ' ', 'd', 'e', 'c', 'o', 'd', 'i', 'n', 'g', ' ', 'l', 'o', 'c', 'a', 'l', 's', ' ', 'v', 'e', 'c', 't', 'o', 'r'] rfl)
    | .DecodeFunctionBody e => Lined.cons h (OneLine.lit ['f', 'a', 'i', 'l', 'e', 'd', ' ', 'd', 'e', 'c', 'o', 'd', 'i', 'n', 'g', ' ', 'f', 'u', 'n', 'c', 't', 'i', 'o', 'n', ' ', 'b', 'o', 'd', 'y', ' ', 'e', 'x', 'p', 'r', 'e', 's', 's', 'i', 'o', 'n'] rfl)
    | .EntrySizeMismatch x0 x1 x2 => Lined.leaf (OneLine.left (OneLine.left (OneLine.left (OneLine.left (OneLine.left (OneLine.left (OneLine.lit ['C', 'o', 'd', 'e', ' ', 'e', 'n', 't', 'r', 'y', ' ', 's', 'i', 'z', 'e', ' ', 'm', 'i', 's', 'm', 'a', 't', 'c', 'h', ':', ' ', 'd', 'e', 'c', 'l', 'a', 'r', 'e', 'd', ' '] rfl) (.nat _)) (.lit [' ', 'b', 'y', 't', 'e', 's', ';', ' ', 'c', 'o', 'n', 's', 'u', 'm', 'e', 'd', ' '] rfl)) (.nat _)) (.lit [' ', '(', 'l', 'e', 'f', 't', 'o', 'v', 'e', 'r', ':', ' '] rfl)) (.nat _)) (.lit [')'] rfl))

instance : Brief DecodeCodeSectionError where
  own := 8
  brief io k e h1 hk := match e with
    | .DecodeList e => Brief.cons (e := e) h1 hk (by decide)

instance : Lined DecodeCodeSectionError where
  line io e h := match e with
    | .DecodeList e => Lined.cons h (OneLine.lit ['f', 'a', 'i', 'l', 'e', 'd', ' ', 'd', 'e', 'c', 'o', 'd', 'i', 'n', 'g', ' ', 'C', 'o', 'd', 'e', ' ', 's', 'e', 'c', 't', 'i', 'o', 'n'] rfl)

instance : Brief DecodeCustomSectionError where
  own := 2
  brief io k e h1 hk := match e with
    | .DecodeName e => Brief.cons (e := e) h1 hk (by decide)
    | .Io e => Brief.cons (e := e) h1 hk (by decide)

instance : Lined DecodeCustomSectionError where
  line io e h := match e with
    | .DecodeName e => Lined.cons h (OneLine.lit ['f', 'a', 'i', 'l', 'e', 'd', ' ', 'd', 'e', 'c', 'o', 'd', 'i', 'n', 'g', ' ', 'c', 'u', 's', 't', 'o', 'm', ' ', 's', 'e', 'c', 't', 'i', 'o', 'n', ' ', 'n', 'a', 'm', 'e'] rfl)
    | .Io e => Lined.cons h (OneLine.lit ['f', 'a', 'i', 'l', 'e', 'd', ' ', 'r', 'e', 'a', 'd', 'i', 'n', 'g', ' ', 'c', 'u', 's', 't', 'o', 'm', ' ', 's', 'e', 'c', 't', 'i', 'o', 'n', ' ', 'c', 'o', 'n', 't', 'e', 'n', 't', 's'] rfl)

instance : Brief DecodeDataSegmentError where
  own := 2
  brief io k e h1 hk := match e with
    | .DecodeBitfield _ => Brief.leaf h1
    | .InvalidBitfield x0 => Brief.leaf h1
    | .DecodeOffsetExpr _ => Brief.leaf h1
    | .DecodeInitVector e => Brief.cons (e := e) h1 hk (by decide)
    | .DecodeMemIdx e => Brief.cons (e := e) h1 hk (by decide)

instance : Lined DecodeDataSegmentError where
  line io e h := match e with
    | .DecodeBitfield _ => Lined.leaf (OneLine.lit ['f', 'a', 'i', 'l', 'e', 'd', ' ', 'd', 'e', 'c', 'o', 'd', 'i', 'n', 'g', ' ', 'b', 'i', 't', 'f', 'i', 'e', 'l', 'd'] rfl)
    | .InvalidBitfield x0 => Lined.leaf (OneLine.left (OneLine.lit ['i', 'n', 'v', 'a', 'l', 'i', 'd', ' ', 'b', 'i', 't', 'f', 'i', 'e', 'l', 'd', ':', ' ', 'e', 'x', 'p', 'e', 'c', 't', 'e', 'd', ' ', '0', ' ', '(', 'p', 'a', 's', 's', 'i', 'v', 'e', ')', ',', ' ', '1', ' ', 'o', 'r', ' ', '2', ' ', '(', 'a', 'c', 't', 'i', 'v', 'e', ')', ';', ' ', 'g', 'o', 't', ' '] rfl) (.nat _))
    | .DecodeOffsetExpr _ => Lined.leaf (OneLine.lit ['f', 'a', 'i', 'l', 'e', 'd', ' ', 'd', 'e', 'c', 'o', 'd', 'i', 'n', 'g', ' ', 'o', 'f', 'f', 's', 'e', 't', ' ', 'e', 'x', 'p', 'r', 'e', 's', 's', 'i', 'o', 'n'] rfl)
    | .DecodeInitVector e => Lined.cons h (OneLine.lit ['f', 'a', 'i', 'l', 'e', 'd', ' ', 'd', 'e', 'c', 'o', 'd', 'i', 'n', 'g', ' ', 'i', 'n', 'i', 't', ' ', 'b', 'y', 't', 'e', ' ', 'v', 'e', 'c', 't', 'o', 'r'] rfl)
    | .DecodeMemIdx e => Lined.cons h (OneLine.lit ['f', 'a', 'i', 'l', 'e', 'd', ' ', 'd', 'e', 'c', 'o', 'd', 'i', 'n', 'g', ' ', 'M', 'e', 'm', 'o', 'r', 'y', ' ', 'i', 'n', 'd', 'e', 'x'] rfl)

instance : Brief DecodeDataSectionError where
  own := 4
  brief io k e h1 hk := match e with
    | .DecodeList e => Brief.cons (e := e) h1 hk (by decide)

instance : Lined DecodeDataSectionError where
  line io e h := match e with
    | .DecodeList e => Lined.cons h (OneLine.lit ['f', 'a', 'i', 'l', 'e', 'd', ' ', 'd', 'e', 'c', 'o', 'd', 'i', 'n', 'g', ' ', 'D', 'a', 't', 'a', ' ', 's', 'e', 'c', 't', 'i', 'o', 'n'] rfl)

instance : Brief DecodeDataCountSectionError where
  own := 1
  brief io k e h1 hk := match e with
    | .DecodeDataSegmentCount e => Brief.cons (e := e) h1 hk (by decide)

instance : Lined DecodeDataCountSectionError where
  line io e h := match e with
    | .DecodeDataSegmentCount e => Lined.cons h (OneLine.lit ['f', 'a', 'i', 'l', 'e', 'd', ' ', 'd', 'e', 'c', 'o', 'd', 'i', 'n', 'g', ' ', 'D', 'a', 't', 'a', ' ', 'S', 'e', 'g', 'm', 'e', 'n', 't', ' ', 'c', 'o', 'u', 'n', 't'] rfl)

instance : Brief DecodeElementKindError where
  own := 0
  brief io k e h1 hk := match e with
    | .Io e => Brief.same (e := e) h1 hk (by decide)
    | .InvalidElemKind x0 => Brief.leaf h1

instance : Lined DecodeElementKindError where
  line io e h := match e with
    | .Io e => Lined.line io e h
    | .InvalidElemKind x0 => Lined.leaf (OneLine.left (OneLine.lit ['e', 'x', 'p', 'e', 'c', 't', 'e', 'd', ' ', 'b', 'y', 't', 'e', ' ', '0', 'x', '0', '0', ';', ' ', 'g', 'o', 't', ' '] rfl) (.hex04 _))

instance : Brief DecodeElementError where
  own := 2
  brief io k e h1 hk := match e with
    | .DecodeBitfield _ => Brief.leaf h1
    | .InvalidBitfield x0 => Brief.leaf h1
    | .DecodeOffsetExpression _ => Brief.leaf h1
    | .DecodeElementKind e => Brief.cons (e := e) h1 hk (by decide)
    | .DecodeElementExpression _ => Brief.leaf h1
    | .DecodeTableIdx e => Brief.same (e := e) h1 hk (by decide)
    | .DecodeReferenceType e => Brief.same (e := e) h1 hk (by decide)
    | .DecodeInit _ => Brief.leaf h1
    | .DecodeFuncIdxVector e => Brief.same (e := e) h1 hk (by decide)

instance : Lined DecodeElementError where
  line io e h := match e with
    | .DecodeBitfield _ => Lined.leaf (OneLine.lit ['f', 'a', 'i', 'l', 'e', 'd', ' ', 'd', 'e', 'c', 'o', 'd', 'i', 'n', 'g', ' ', 'b', 'i', 't', 'f', 'i', 'e', 'l', 'd'] rfl)
    | .InvalidBitfield x0 => Lined.leaf (OneLine.left (OneLine.lit ['i', 'n', 'v', 'a', 'l', 'i', 'd', ' ', 'b', 'i', 't', 'f', 'i', 'e', 'l', 'd', ':', ' ', 'e', 'x', 'p', 'e', 'c', 't', 'e', 'd', ' ', 'v', 'a', 'l', 'u', 'e', ' ', 'i', 'n', ' ', 'r', 'a', 'n', 'g', 'e', ' ', '[', '0', ',', '7', ']', ';', ' ', 'g', 'o', 't', ' '] rfl) (.nat _))
    | .DecodeOffsetExpression _ => Lined.leaf (OneLine.lit ['f', 'a', 'i', 'l', 'e', 'd', ' ', 'd', 'e', 'c', 'o', 'd', 'i', 'n', 'g', ' ', 'o', 'f', 'f', 's', 'e', 't', ' ', 'e', 'x', 'p', 'r', 'e', 's', 's', 'i', 'o', 'n'] rfl)
    | .DecodeElementKind e => Lined.cons h (OneLine.lit ['f', 'a', 'i', 'l', 'e', 'd', ' ', 'd', 'e', 'c', 'o', 'd', 'i', 'n', 'g', ' ', 'E', 'l', 'e', 'm', 'e', 'n', 't', ' ', 'k', 'i', 'n', 'd'] rfl)
    | .DecodeElementExpression _ => Lined.leaf (OneLine.lit ['f', 'a', 'i', 'l', 'e', 'd', ' ', 'd', 'e', 'c', 'o', 'd', 'i', 'n', 'g', ' ', 'E', 'l', 'e', 'm', 'e', 'n', 't', ' ', 'e', 'x', 'p', 'r', 'e', 's', 's', 'i', 'o', 'n'] rfl)
    | .DecodeTableIdx e => Lined.line io e h
    | .DecodeReferenceType e => Lined.line io e h
    | .DecodeInit _ => Lined.leaf (OneLine.lit ['f', 'a', 'i', 'l', 'e', 'd', ' ', 'd', 'e', 'c', 'o', 'd', 'i', 'n', 'g', ' ', 't', 'a', 'b', 'l', 'e', '.', 'i', 'n', 'i', 't', ' ', 'e', 'x', 'p', 'r', 'e', 's', 's', 'i', 'o', 'n', 's'] rfl)
    | .DecodeFuncIdxVector e => Lined.line io e h

instance : Brief DecodeElementSectionError where
  own := 4
  brief io k e h1 hk := match e with
    | .DecodeList e => Brief.cons (e := e) h1 hk (by decide)

instance : Lined DecodeElementSectionError where
  line io e h := match e with
    | .DecodeList e => Lined.cons h (OneLine.lit ['f', 'a', 'i', 'l', 'e', 'd', ' ', 'd', 'e', 'c', 'o', 'd', 'i', 'n', 'g', ' ', 'E', 'l', 'e', 'm', 'e', 'n', 't', ' ', 's', 'e', 'c', 't', 'i', 'o', 'n'] rfl)

instance : Brief InvalidExportDescMarkerByte where
  own := 0
  brief io k e h1 hk := match e with
    | .mk x0 => Brief.leaf h1

instance : Lined InvalidExportDescMarkerByte where
  line io e h := match e with
    | .mk x0 => Lined.leaf (OneLine.left (OneLine.lit ['i', 'n', 'v', 'a', 'l', 'i', 'd', ' ', 'E', 'x', 'p', 'o', 'r', 't', 'D', 'e', 's', 'c', ' ', 'm', 'a', 'r', 'k', 'e', 'r', ' ', 'b', 'y', 't', 'e', ':', ' ', 'e', 'x', 'p', 'e', 'c', 't', 'e', 'd', ' ', '0', 'x', '0', '0', ' ', '(', 'f', 'u', 'n', 'c', ')', ',', ' ', '0', 'x', '0', '1', ' ', '(', 't', 'a', 'b', 'l', 'e', ')', ',', ' ', '0', 'x', '0', '2', ' ', '(', 'm', 'e', 'm', ')', ',', ' ', '0', 'x', '0', '3', ' ', '(', 'g', 'l', 'o', 'b', 'a', 'l', ')', ',', ' ', '0', 'x', '0', '4', ' ', '(', 't', 'a', 'g', ')', ';', ' ', 'g', 'o', 't', ' '] rfl) (.hex04 _))

instance : Brief DecodeExportError where
  own := 1
  brief io k e h1 hk := match e with
    | .DecodeName e => Brief.same (e := e) h1 hk (by decide)
    | .ReadDescriptorMarkerByte _ => Brief.leaf h1
    | .DecodeIndex e => Brief.cons (e := e) h1 hk (by decide)
    | .InvalidDescriptorMarkerByte e => Brief.same (e := e) h1 hk (by decide)

instance : Lined DecodeExportError where
  line io e h := match e with
    | .DecodeName e => Lined.line io e h
    | .ReadDescriptorMarkerByte _ => Lined.leaf (OneLine.lit ['f', 'a', 'i', 'l', 'e', 'd', ' ', 'r', 'e', 'a', 'd', 'i', 'n', 'g', ' ', 'E', 'x', 'p', 'o', 'r', 't', ' ', 'd', 'e', 's', 'c', 'r', 'i', 'p', 't', 'o', 'r', ' ', 'm', 'a', 'r', 'k', 'e', 'r', ' ', 'b', 'y', 't', 'e'] rfl)
    | .DecodeIndex e => Lined.cons h (OneLine.lit ['f', 'a', 'i', 'l', 'e', 'd', ' ', 'r', 'e', 'a', 'd', 'i', 'n', 'g', ' ', 'E', 'x', 'p', 'o', 'r', 't', 'D', 'e', 's', 'c', ' ', 'i', 'n', 'd', 'e', 'x'] rfl)
    | .InvalidDescriptorMarkerByte e => Lined.line io e h

instance : Brief DecodeExportSectionError where
  own := 3
  brief io k e h1 hk := match e with
    | .DecodeList e => Brief.cons (e := e) h1 hk (by decide)

instance : Lined DecodeExportSectionError where
  line io e h := match e with
    | .DecodeList e => Lined.cons h (OneLine.lit ['f', 'a', 'i', 'l', 'e', 'd', ' ', 'd', 'e', 'c', 'o', 'd', 'i', 'n', 'g', ' ', 'E', 'x', 'p', 'o', 'r', 't', ' ', 's', 'e', 'c', 't', 'i', 'o', 'n'] rfl)

instance : Brief DecodeFunctionSectionError where
  own := 3
  brief io k e h1 hk := match e with
    | .DecodeList e => Brief.cons (e := e) h1 hk (by decide)

instance : Lined DecodeFunctionSectionError where
  line io e h := match e with
    | .DecodeList e => Lined.cons h (OneLine.lit ['f', 'a', 'i', 'l', 'e', 'd', ' ', 'd', 'e', 'c', 'o', 'd', 'i', 'n', 'g', ' ', 'F', 'u', 'n', 'c', 't', 'i', 'o', 'n', ' ', 's', 'e', 'c', 't', 'i', 'o', 'n'] rfl)

instance : Brief DecodeGlobalError where
  own := 6
  brief io k e h1 hk := match e with
    | .DecodeGlobalType e => Brief.same (e := e) h1 hk (by decide)
    | .DecodeInit e => Brief.cons (e := e) h1 hk (by decide)

instance : Lined DecodeGlobalError where
  line io e h := match e with
    | .DecodeGlobalType e => Lined.line io e h
    | .DecodeInit e => Lined.cons h (OneLine.lit ['f', 'a', 'i', 'l', 'e', 'd', ' ', 'd', 'e', 'c', 'o', 'd', 'i', 'n', 'g', ' ', 'I', 'n', 'i', 't'] rfl)

instance : Brief DecodeGlobalSectionError where
  own := 8
  brief io k e h1 hk := match e with
    | .DecodeList e => Brief.cons (e := e) h1 hk (by decide)

instance : Lined DecodeGlobalSectionError where
  line io e h := match e with
    | .DecodeList e => Lined.cons h (OneLine.lit ['f', 'a', 'i', 'l', 'e', 'd', ' ', 'd', 'e', 'c', 'o', 'd', 'i', 'n', 'g', ' ', 'G', 'l', 'o', 'b', 'a', 'l', ' ', 's', 'e', 'c', 't', 'i', 'o', 'n'] rfl)

instance : Brief DecodeImportError where
  own := 2
  brief io k e h1 hk := match e with
    | .DecodeModuleName _ => Brief.leaf h1
    | .DecodeItemName _ => Brief.leaf h1
    | .DecodeExternType e => Brief.same (e := e) h1 hk (by decide)

instance : Lined DecodeImportError where
  line io e h := match e with
    | .DecodeModuleName _ => Lined.leaf (OneLine.lit ['f', 'a', 'i', 'l', 'e', 'd', ' ', 'd', 'e', 'c', 'o', 'd', 'i', 'n', 'g', ' ', 'm', 'o', 'd', 'u', 'l', 'e', ' ', 'n', 'a', 'm', 'e'] rfl)
    | .DecodeItemName _ => Lined.leaf (OneLine.lit ['f', 'a', 'i', 'l', 'e', 'd', ' ', 'd', 'e', 'c', 'o', 'd', 'i', 'n', 'g', ' ', 'i', 't', 'e', 'm', ' ', 'n', 'a', 'm', 'e'] rfl)
    | .DecodeExternType e => Lined.line io e h

instance : Brief DecodeImportSectionError where
  own := 4
  brief io k e h1 hk := match e with
    | .DecodeList e => Brief.cons (e := e) h1 hk (by decide)

instance : Lined DecodeImportSectionError where
  line io e h := match e with
    | .DecodeList e => Lined.cons h (OneLine.lit ['f', 'a', 'i', 'l', 'e', 'd', ' ', 'd', 'e', 'c', 'o', 'd', 'i', 'n', 'g', ' ', 'I', 'm', 'p', 'o', 'r', 't', ' ', 's', 'e', 'c', 't', 'i', 'o', 'n'] rfl)

instance : Brief DecodeMemorySectionError where
  own := 3
  brief io k e h1 hk := match e with
    | .DecodeList e => Brief.cons (e := e) h1 hk (by decide)

instance : Lined DecodeMemorySectionError where
  line io e h := match e with
    | .DecodeList e => Lined.cons h (OneLine.lit ['f', 'a', 'i', 'l', 'e', 'd', ' ', 'd', 'e', 'c', 'o', 'd', 'i', 'n', 'g', ' ', 'M', 'e', 'm', 'o', 'r', 'y', ' ', 's', 'e', 'c', 't', 'i', 'o', 'n'] rfl)

instance : Brief DecodeStartSectionError where
  own := 2
  brief io k e h1 hk := match e with
    | .mk e => Brief.cons (e := e) h1 hk (by decide)

instance : Lined DecodeStartSectionError where
  line io e h := match e with
    | .mk e => Lined.cons h (OneLine.lit ['f', 'a', 'i', 'l', 'e', 'd', ' ', 'd', 'e', 'c', 'o', 'd', 'i', 'n', 'g', ' ', 'S', 't', 'a', 'r', 't', ' ', 's', 'e', 'c', 't', 'i', 'o', 'n'] rfl)

instance : Brief DecodeTableError where
  own := 5
  brief io k e h1 hk := match e with
    | .Io e => Brief.same (e := e) h1 hk (by decide)
    | .UnexpectedMarkerByte x0 => Brief.leaf h1
    | .DecodeTableType e => Brief.same (e := e) h1 hk (by decide)
    | .DecodeExpression e => Brief.same (e := e) h1 hk (by decide)

instance : Lined DecodeTableError where
  line io e h := match e with
    | .Io e => Lined.line io e h
    | .UnexpectedMarkerByte x0 => Lined.leaf (OneLine.left (OneLine.lit ['u', 'n', 'e', 'x', 'p', 'e', 'c', 't', 'e', 'd', ' ', 'm', 'a', 'r', 'k', 'e', 'r', ' ', 'b', 'y', 't', 'e', ':', ' ', 'e', 'x', 'p', 'e', 'c', 't', 'e', 'd', ' ', '0', 'x', '0', '0', ';', ' ', 'g', 'o', 't', ' '] rfl) (.hex04 _))
    | .DecodeTableType e => Lined.line io e h
    | .DecodeExpression e => Lined.line io e h

instance : Brief DecodeTableSectionError where
  own := 7
  brief io k e h1 hk := match e with
    | .DecodeList e => Brief.cons (e := e) h1 hk (by decide)

instance : Lined DecodeTableSectionError where
  line io e h := match e with
    | .DecodeList e => Lined.cons h (OneLine.lit ['f', 'a', 'i', 'l', 'e', 'd', ' ', 'd', 'e', 'c', 'o', 'd', 'i', 'n', 'g', ' ', 'T', 'a', 'b', 'l', 'e', ' ', 's', 'e', 'c', 't', 'i', 'o', 'n'] rfl)

instance : Brief DecodeTagSectionError where
  own := 4
  brief io k e h1 hk := match e with
    | .DecodeList e => Brief.cons (e := e) h1 hk (by decide)

instance : Lined DecodeTagSectionError where
  line io e h := match e with
    | .DecodeList e => Lined.cons h (OneLine.lit ['f', 'a', 'i', 'l', 'e', 'd', ' ', 'd', 'e', 'c', 'o', 'd', 'i', 'n', 'g', ' ', 'T', 'a', 'g', ' ', 's', 'e', 'c', 't', 'i', 'o', 'n'] rfl)

instance : Brief DecodeTypeSectionError where
  own := 9
  brief io k e h1 hk := match e with
    | .DecodeList e => Brief.cons (e := e) h1 hk (by decide)

instance : Lined DecodeTypeSectionError where
  line io e h := match e with
    | .DecodeList e => Lined.cons h (OneLine.lit ['f', 'a', 'i', 'l', 'e', 'd', ' ', 'd', 'e', 'c', 'o', 'd', 'i', 'n', 'g', ' ', 'T', 'y', 'p', 'e', ' ', 's', 'e', 'c', 't', 'i', 'o', 'n'] rfl)

instance : Brief InvalidSectionIdError where
  own := 0
  brief io k e h1 hk := match e with
    | .mk x0 => Brief.leaf h1

instance : Lined InvalidSectionIdError where
  line io e h := match e with
    | .mk x0 => Lined.leaf (OneLine.left (OneLine.left (OneLine.left (OneLine.lit ['i', 'n', 'v', 'a', 'l', 'i', 'd', ' ', 's', 'e', 'c', 't', 'i', 'o', 'n', ' ', 'I', 'D', ':', ' ', 'e', 'x', 'p', 'e', 'c', 't', 'e', 'd', ' ', 'o', 'n', 'e', ' ', 'o', 'f', ' '] rfl) (.markers NoBreak.kind)) (.lit [';', ' ', 'g', 'o', 't', ' '] rfl)) (.hex04 _))

instance : Brief ParsePreambleError where
  own := 1
  brief io k e h1 hk := match e with
    | .Io e => Brief.cons (e := e) h1 hk (by decide)
    | .Unexpected x0 => Brief.leaf h1

instance : Brief DecodeSectionHeaderError where
  own := 1
  brief io k e h1 hk := match e with
    | .ReadSectionIdByte e => Brief.cons (e := e) h1 hk (by decide)
    | .InvalidSectionId e => Brief.cons (e := e) h1 hk (by decide)
    | .DecodeSectionSize e => Brief.cons (e := e) h1 hk (by decide)

instance : Lined DecodeSectionHeaderError where
  line io e h := match e with
    | .ReadSectionIdByte e => Lined.cons h (OneLine.lit ['f', 'a', 'i', 'l', 'e', 'd', ' ', 'r', 'e', 'a', 'd', 'i', 'n', 'g', ' ', 's', 'e', 'c', 't', 'i', 'o', 'n', ' ', 'I', 'D', ' ', 'b', 'y', 't', 'e'] rfl)
    | .InvalidSectionId e => Lined.cons h (OneLine.lit ['i', 'n', 'v', 'a', 'l', 'i', 'd', ' ', 's', 'e', 'c', 't', 'i', 'o', 'n', ' ', 'I', 'D'] rfl)
    | .DecodeSectionSize e => Lined.cons h (OneLine.lit ['f', 'a', 'i', 'l', 'e', 'd', ' ', 'd', 'e', 'c', 'o', 'd', 'i', 'n', 'g', ' ', 's', 'e', 'c', 't', 'i', 'o', 'n', ' ', 's', 'i', 'z', 'e'] rfl)

instance : Brief DecodeModuleError where
  own := 9
  brief io k e h1 hk := match e with
    | .ParsePreamble e => Brief.same (e := e) h1 hk (by decide)
    | .CodeFuncEntriesLenMismatch _ _ => Brief.leaf h1
    | .DataCountMismatch _ _ => Brief.leaf h1
    | .SectionOutOfOrder x0 x1 => Brief.leaf h1
    | .DuplicateSection x0 => Brief.leaf h1
    | .SectionSizeMismatch x0 x1 x2 => Brief.leaf h1
    | .DataCountDatasLenMismatch x0 x1 => Brief.leaf h1
    | .DecodeDataCount => Brief.leaf h1
    | .DataIndexWithoutDataCount => Brief.leaf h1
    | .DecodeSectionHeader e => Brief.same (e := e) h1 hk (by decide)
    | .DecodeCustomSection e => Brief.same (e := e) h1 hk (by decide)
    | .DecodeTypeSection e => Brief.same (e := e) h1 hk (by decide)
    | .DecodeImportSection e => Brief.same (e := e) h1 hk (by decide)
    | .DecodeFunctionSection e => Brief.same (e := e) h1 hk (by decide)
    | .DecodeTableSection e => Brief.same (e := e) h1 hk (by decide)
    | .DecodeMemorySection e => Brief.same (e := e) h1 hk (by decide)
    | .DecodeGlobalSection e => Brief.same (e := e) h1 hk (by decide)
    | .DecodeExportSection e => Brief.same (e := e) h1 hk (by decide)
    | .DecodeStartSection e => Brief.same (e := e) h1 hk (by decide)
    | .DecodeElementSection e => Brief.same (e := e) h1 hk (by decide)
    | .DecodeDatacountSection e => Brief.same (e := e) h1 hk (by decide)
    | .DecodeCodeSection e => Brief.same (e := e) h1 hk (by decide)
    | .DecodeDataSection e => Brief.same (e := e) h1 hk (by decide)
    | .DecodeTagSection e => Brief.same (e := e) h1 hk (by decide)

theorem module_lined (io : IoError → List String) (e : DecodeModuleError) (h : ∀ x, ∀ s ∈ io x, OneLine s)
    (hn : ∀ b, e ≠ .ParsePreamble (.Unexpected b)) : ∀ s ∈ ErrText.chain io e, OneLine s :=
  match e with
    | .ParsePreamble (.Unexpected b) => absurd rfl (hn b)
    | .ParsePreamble (.Io e) => Lined.cons h (OneLine.lit ['f', 'a', 'i', 'l', 'e', 'd', ' ', 'd', 'e', 'c', 'o', 'd', 'i', 'n', 'g', ' ', 'p', 'r', 'e', 'a', 'm', 'b', 'l', 'e'] rfl)
    | .CodeFuncEntriesLenMismatch _ _ => Lined.leaf (OneLine.lit ['n', 'u', 'm', 'b', 'e', 'r', ' ', 'o', 'f', ' ', 'C', 'o', 'd', 'e', ' ', 'e', 'n', 't', 'r', 'i', 'e', 's', ' ', 'd', 'o', 'e', 's', ' ', 'n', 'o', 't', ' ', 'm', 'a', 't', 'c', 'h', ' ', 'n', 'u', 'm', 'b', 'e', 'r', ' ', 'o', 'f', ' ', 'F', 'u', 'n', 'c', 't', 'i', 'o', 'n', ' ', 'e', 'n', 't', 'r', 'i', 'e', 's'] rfl)
    | .DataCountMismatch _ _ => Lined.leaf (OneLine.lit ['n', 'u', 'm', 'b', 'e', 'r', ' ', 'o', 'f', ' ', 'D', 'a', 't', 'a', ' ', 's', 'e', 'g', 'm', 'e', 'n', 't', 's', ' ', 'd', 'o', 'e', 's', ' ', 'n', 'o', 't', ' ', 'm', 'a', 't', 'c', 'h', ' ', 't', 'h', 'e', ' ', 'D', 'a', 't', 'a', ' ', 'C', 'o', 'u', 'n', 't', ' ', 's', 'e', 'c', 't', 'i', 'o', 'n'] rfl)
    | .SectionOutOfOrder x0 x1 => Lined.leaf (OneLine.left (OneLine.left (OneLine.left (OneLine.lit ['o', 'u', 't', ' ', 'o', 'f', ' ', 'o', 'r', 'd', 'e', 'r', ' ', 's', 'e', 'c', 't', 'i', 'o', 'n', ':', ' '] rfl) (.kind _)) (.lit [' ', 'c', 'a', 'n', 'n', 'o', 't', ' ', 'a', 'p', 'p', 'e', 'a', 'r', ' ', 'a', 'f', 't', 'e', 'r', ' '] rfl)) (.kind _))
    | .DuplicateSection x0 => Lined.leaf (OneLine.left (OneLine.lit ['e', 'n', 'c', 'o', 'u', 'n', 't', 'e', 'r', 'e', 'd', ' ', 'd', 'u', 'p', 'l', 'i', 'c', 'a', 't', 'e', ' ', 's', 'e', 'c', 't', 'i', 'o', 'n', ':', ' '] rfl) (.kind _))
    | .SectionSizeMismatch x0 x1 x2 => Lined.leaf (OneLine.left (OneLine.left (OneLine.left (OneLine.right (.kind _) (OneLine.lit [' ', 's', 'e', 'c', 't', 'i', 'o', 'n', ' ', 's', 'i', 'z', 'e', ' ', 'm', 'i', 's', 'm', 'a', 't', 'c', 'h', ':', ' ', 'd', 'e', 'c', 'l', 'a', 'r', 'e', 'd', ' '] rfl)) (.nat _)) (.lit [' ', 'b', 'y', 't', 'e', 's', ';', ' ', 'g', 'o', 't', ' '] rfl)) (.nat _))
    | .DataCountDatasLenMismatch x0 x1 => Lined.leaf (OneLine.left (OneLine.left (OneLine.left (OneLine.lit ['D', 'a', 't', 'a', ' ', 'C', 'o', 'u', 'n', 't', ' ', 's', 'e', 'c', 't', 'i', 'o', 'n', ' ', 'd', 'o', 'e', 's', ' ', 'n', 'o', 't', ' ', 'm', 'a', 't', 'c', 'h', ' ', 'D', 'a', 't', 'a', 's', ' ', 'l', 'e', 'n', 'g', 't', 'h', ':', ' ', 'd', 'e', 'c', 'l', 'a', 'r', 'e', 'd', ' '] rfl) (.nat _)) (.lit [';', ' ', 'g', 'o', 't', ' '] rfl)) (.nat _))
    | .DecodeDataCount => Lined.leaf (OneLine.lit ['f', 'a', 'i', 'l', 'e', 'd', ' ', 'd', 'e', 'c', 'o', 'd', 'i', 'n', 'g', ' ', 'D', 'a', 't', 'a', ' ', 'C', 'o', 'u', 'n', 't', ' ', 's', 'e', 'c', 't', 'i', 'o', 'n'] rfl)
    | .DataIndexWithoutDataCount => Lined.leaf (OneLine.lit ['D', 'a', 't', 'a', ' ', 'i', 'n', 'd', 'e', 'x', ' ', 'w', 'a', 's', ' ', 'p', 'r', 'e', 's', 'e', 'n', 't', ' ', 'i', 'n', ' ', 'C', 'o', 'd', 'e', ' ', 's', 'e', 'c', 't', 'i', 'o', 'n', ',', ' ', 'b', 'u', 't', ' ', 'D', 'a', 't', 'a', ' ', 'C', 'o', 'u', 'n', 't', ' ', 's', 'e', 'c', 't', 'i', 'o', 'n', ' ', 'i', 's', ' ', 'm', 'i', 's', 's', 'i', 'n', 'g'] rfl)
    | .DecodeSectionHeader e => Lined.line io e h
    | .DecodeCustomSection e => Lined.line io e h
    | .DecodeTypeSection e => Lined.line io e h
    | .DecodeImportSection e => Lined.line io e h
    | .DecodeFunctionSection e => Lined.line io e h
    | .DecodeTableSection e => Lined.line io e h
    | .DecodeMemorySection e => Lined.line io e h
    | .DecodeGlobalSection e => Lined.line io e h
    | .DecodeExportSection e => Lined.line io e h
    | .DecodeStartSection e => Lined.line io e h
    | .DecodeElementSection e => Lined.line io e h
    | .DecodeDatacountSection e => Lined.line io e h
    | .DecodeCodeSection e => Lined.line io e h
    | .DecodeDataSection e => Lined.line io e h
    | .DecodeTagSection e => Lined.line io e h

end Wadec
