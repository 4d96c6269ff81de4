import Verif.Proof.CurtBase

/-! Generated by tools/gen_curt.py: how long the messages and the debug texts of errors are (C79), besides the texts of an
`io::Error` and the bytes of an ill-formed name.  Three instances per error type, in the order of Model/Display.lean. -/

set_option linter.unusedVariables false

namespace Wadec

open Spec

/-- the name of the type of an element's error -/
class Dubbed (ε : Type) [TypeName ε] : Prop where
  dubbed : Label 40 (typeName ε)

instance : Measured DecodeU32Error := ⟨fun _ _ => True⟩
instance : Bare DecodeU32Error := ⟨fun _ _ => trivial⟩

instance : Curt DecodeU32Error where
  own := 30
  curt io q n e hq hs := match e with
    | .TooLarge => Curt.leaf (io := io) (Len.lit ['u', 'i', 'n', 't', '3', '2', ' ', 't', 'o', 'o', ' ', 'l', 'a', 'r', 'g', 'e']) (by decide)
    | .RepresentationTooLong => Curt.leaf (io := io) (Len.lit ['u', 'i', 'n', 't', '3', '2', ' ', 'r', 'e', 'p', 'r', 'e', 's', 'e', 'n', 't', 'a', 't', 'i', 'o', 'n', ' ', 't', 'o', 'o', ' ', 'l', 'o', 'n', 'g']) (by decide)
    | .Io e => Curt.same (n := n) (e := e) hq (show sane n e from Bare.free n e) (by decide)

instance : Terse DecodeU32Error where
  a := 21
  b := 2
  d := 1
  terse T u n e hu hs := match e with
    | .TooLarge => ((Fixed.word (k := 8) (by decide)).short).mono (by decide) (by decide) (by decide)
    | .RepresentationTooLong => ((Fixed.word (k := 21) (by decide)).short).mono (by decide) (by decide) (by decide)
    | .Io x => (Squat.tuple (k := 2) ((Terse.terse T u n x hu (Bare.free n x))) (by decide)).mono (by decide) (by decide) (by decide)

instance : Measured DecodeU64Error := ⟨fun _ _ => True⟩
instance : Bare DecodeU64Error := ⟨fun _ _ => trivial⟩

instance : Curt DecodeU64Error where
  own := 30
  curt io q n e hq hs := match e with
    | .TooLarge => Curt.leaf (io := io) (Len.lit ['u', 'i', 'n', 't', '6', '4', ' ', 't', 'o', 'o', ' ', 'l', 'a', 'r', 'g', 'e']) (by decide)
    | .RepresentationTooLong => Curt.leaf (io := io) (Len.lit ['u', 'i', 'n', 't', '6', '4', ' ', 'r', 'e', 'p', 'r', 'e', 's', 'e', 'n', 't', 'a', 't', 'i', 'o', 'n', ' ', 't', 'o', 'o', ' ', 'l', 'o', 'n', 'g']) (by decide)
    | .Io e => Curt.same (n := n) (e := e) hq (show sane n e from Bare.free n e) (by decide)

instance : Terse DecodeU64Error where
  a := 21
  b := 2
  d := 1
  terse T u n e hu hs := match e with
    | .TooLarge => ((Fixed.word (k := 8) (by decide)).short).mono (by decide) (by decide) (by decide)
    | .RepresentationTooLong => ((Fixed.word (k := 21) (by decide)).short).mono (by decide) (by decide) (by decide)
    | .Io x => (Squat.tuple (k := 2) ((Terse.terse T u n x hu (Bare.free n x))) (by decide)).mono (by decide) (by decide) (by decide)

instance : Measured DecodeI32Error := ⟨fun _ _ => True⟩
instance : Bare DecodeI32Error := ⟨fun _ _ => trivial⟩

instance : Curt DecodeI32Error where
  own := 29
  curt io q n e hq hs := match e with
    | .TooLarge => Curt.leaf (io := io) (Len.lit ['i', 'n', 't', '3', '2', ' ', 't', 'o', 'o', ' ', 'l', 'a', 'r', 'g', 'e']) (by decide)
    | .RepresentationTooLong => Curt.leaf (io := io) (Len.lit ['i', 'n', 't', '3', '2', ' ', 'r', 'e', 'p', 'r', 'e', 's', 'e', 'n', 't', 'a', 't', 'i', 'o', 'n', ' ', 't', 'o', 'o', ' ', 'l', 'o', 'n', 'g']) (by decide)
    | .Io e => Curt.same (n := n) (e := e) hq (show sane n e from Bare.free n e) (by decide)

instance : Terse DecodeI32Error where
  a := 21
  b := 2
  d := 1
  terse T u n e hu hs := match e with
    | .TooLarge => ((Fixed.word (k := 8) (by decide)).short).mono (by decide) (by decide) (by decide)
    | .RepresentationTooLong => ((Fixed.word (k := 21) (by decide)).short).mono (by decide) (by decide) (by decide)
    | .Io x => (Squat.tuple (k := 2) ((Terse.terse T u n x hu (Bare.free n x))) (by decide)).mono (by decide) (by decide) (by decide)

instance : Measured DecodeI64Error := ⟨fun _ _ => True⟩
instance : Bare DecodeI64Error := ⟨fun _ _ => trivial⟩

instance : Curt DecodeI64Error where
  own := 30
  curt io q n e hq hs := match e with
    | .RepresentationTooLong => Curt.leaf (io := io) (Len.lit ['i', 'n', 't', '6', '4', ' ', 'r', 'e', 'p', 'r', 'e', 's', 'e', 'n', 't', 'a', 't', 'i', 'o', 'n', ' ', 't', 'o', 'o', ' ', 'l', 'o', 'n', 'g']) (by decide)
    | .IncorrectSignExtension => Curt.leaf (io := io) (Len.lit ['i', 'n', 't', '6', '4', ' ', 'i', 'n', 'c', 'o', 'r', 'r', 'e', 'c', 't', ' ', 's', 'i', 'g', 'n', ' ', 'e', 'x', 't', 'e', 'n', 's', 'i', 'o', 'n']) (by decide)
    | .Io e => Curt.same (n := n) (e := e) hq (show sane n e from Bare.free n e) (by decide)

instance : Terse DecodeI64Error where
  a := 22
  b := 2
  d := 1
  terse T u n e hu hs := match e with
    | .RepresentationTooLong => ((Fixed.word (k := 21) (by decide)).short).mono (by decide) (by decide) (by decide)
    | .IncorrectSignExtension => ((Fixed.word (k := 22) (by decide)).short).mono (by decide) (by decide) (by decide)
    | .Io x => (Squat.tuple (k := 2) ((Terse.terse T u n x hu (Bare.free n x))) (by decide)).mono (by decide) (by decide) (by decide)

instance : Measured DecodeS33Error := ⟨fun _ _ => True⟩
instance : Bare DecodeS33Error := ⟨fun _ _ => trivial⟩

instance : Curt DecodeS33Error where
  own := 28
  curt io q n e hq hs := match e with
    | .RepresentationTooLong => Curt.leaf (io := io) (Len.lit ['s', '3', '3', ' ', 'r', 'e', 'p', 'r', 'e', 's', 'e', 'n', 't', 'a', 't', 'i', 'o', 'n', ' ', 't', 'o', 'o', ' ', 'l', 'o', 'n', 'g']) (by decide)
    | .IncorrectSignExtension => Curt.leaf (io := io) (Len.lit ['s', '3', '3', ' ', 'i', 'n', 'c', 'o', 'r', 'r', 'e', 'c', 't', ' ', 's', 'i', 'g', 'n', ' ', 'e', 'x', 't', 'e', 'n', 's', 'i', 'o', 'n']) (by decide)
    | .Io e => Curt.same (n := n) (e := e) hq (show sane n e from Bare.free n e) (by decide)

instance : Terse DecodeS33Error where
  a := 22
  b := 2
  d := 1
  terse T u n e hu hs := match e with
    | .RepresentationTooLong => ((Fixed.word (k := 21) (by decide)).short).mono (by decide) (by decide) (by decide)
    | .IncorrectSignExtension => ((Fixed.word (k := 22) (by decide)).short).mono (by decide) (by decide) (by decide)
    | .Io x => (Squat.tuple (k := 2) ((Terse.terse T u n x hu (Bare.free n x))) (by decide)).mono (by decide) (by decide) (by decide)

instance : Measured DecodeLabelIdxError := ⟨fun _ _ => True⟩
instance : Bare DecodeLabelIdxError := ⟨fun _ _ => trivial⟩

instance : Curt DecodeLabelIdxError where
  own := 60
  curt io q n e hq hs := match e with
    | .mk e => Curt.cons (n := n) (e := e) hq (show sane n e from Bare.free n e) (Len.lit ['f', 'a', 'i', 'l', 'e', 'd', ' ', 'd', 'e', 'c', 'o', 'd', 'i', 'n', 'g', ' ', 'L', 'a', 'b', 'e', 'l', 'I', 'd', 'x', ' ', 'i', 'n', 'd', 'e', 'x']) (by decide)

instance : Terse DecodeLabelIdxError where
  a := 57
  b := 4
  d := 2
  terse T u n e hu hs := match e with
    | .mk x => (Squat.tuple (k := 19) ((Terse.terse T u n x hu (Bare.free n x))) (by decide)).mono (by decide) (by decide) (by decide)

instance : Dubbed DecodeLabelIdxError := ⟨by decide⟩

instance {E : Type} [Measured E] : Measured (DecodeListError E) := ⟨fun n e => match e with
  | .DecodeLength _ => True
  | .ParseElement _ e => sane n e⟩
instance {E : Type} [Measured E] [Bare E] : Bare (DecodeListError E) := ⟨fun n e => match e with
  | .DecodeLength _ => trivial
  | .ParseElement _ e => Bare.free n e⟩

instance {E : Type} [ErrText E] [Measured E] [Curt E] : Curt (DecodeListError E) where
  own := Curt.own E + 62
  curt io q n e hq hs := match e with
    | .DecodeLength e => Curt.cons (n := n) (e := e) hq (show sane n e from Bare.free n e) (Len.lit ['f', 'a', 'i', 'l', 'e', 'd', ' ', 'd', 'e', 'c', 'o', 'd', 'i', 'n', 'g', ' ', 'v', 'e', 'c', 't', 'o', 'r', ' ', 'l', 'e', 'n', 'g', 't', 'h']) (Nat.le_trans (show _ ≤ 62 by decide) (Nat.le_add_left _ _))
    | .ParseElement x0 e => Curt.cons (n := n) (e := e) hq (show sane n e from hs) (Len.append (Len.lit ['f', 'a', 'i', 'l', 'e', 'd', ' ', 'p', 'a', 'r', 's', 'i', 'n', 'g', ' ', 'v', 'e', 'c', 't', 'o', 'r', ' ', 'e', 'l', 'e', 'm', 'e', 'n', 't', ' ', 'a', 't', ' ', 'p', 'o', 's', 'i', 't', 'i', 'o', 'n', ' ']) (.u32 _)) (by show 62 + Curt.own E ≤ Curt.own E + 62; omega)

instance {E : Type} [Debug E] [TypeName E] [Measured E] [Terse E] [Dubbed E] : Terse (DecodeListError E) where
  a := 130 + Terse.a E + 4 * Terse.b E
  b := Terse.b E + 4
  d := max (Terse.d E) 1 + 1
  terse T u n e hu hs := match e with
    | .DecodeLength e => ((Terse.terse T u n e hu (Bare.free n e)).tuple (k := 12) (by decide)).mono
        (Nat.le_trans (show _ ≤ 130 by decide) (by rw [Nat.add_assoc]; exact Nat.le_add_right _ _))
        (Nat.le_trans (show _ ≤ 4 by decide) (Nat.le_add_left _ _)) (Nat.succ_le_succ (Nat.le_max_right _ _))
    | .ParseElement p e => (Squat.struct (Fixed.u32 T p) ((Terse.terse T u n e hu hs).path (Dubbed.dubbed (ε := E)))
        (k := 12) (k1 := 8) (k2 := 6) (by decide) (by decide) (by decide)).mono (by omega) (by omega) (Nat.succ_le_succ (Nat.le_max_left _ _))

instance : Measured DecodeFuncIdxError := ⟨fun _ _ => True⟩
instance : Bare DecodeFuncIdxError := ⟨fun _ _ => trivial⟩

instance : Curt DecodeFuncIdxError where
  own := 59
  curt io q n e hq hs := match e with
    | .mk e => Curt.cons (n := n) (e := e) hq (show sane n e from Bare.free n e) (Len.lit ['f', 'a', 'i', 'l', 'e', 'd', ' ', 'd', 'e', 'c', 'o', 'd', 'i', 'n', 'g', ' ', 'F', 'u', 'n', 'c', 'I', 'd', 'x', ' ', 'i', 'n', 'd', 'e', 'x']) (by decide)

instance : Terse DecodeFuncIdxError where
  a := 56
  b := 4
  d := 2
  terse T u n e hu hs := match e with
    | .mk x => (Squat.tuple (k := 18) ((Terse.terse T u n x hu (Bare.free n x))) (by decide)).mono (by decide) (by decide) (by decide)

instance : Dubbed DecodeFuncIdxError := ⟨by decide⟩

instance : Measured DecodeTableIdxError := ⟨fun _ _ => True⟩
instance : Bare DecodeTableIdxError := ⟨fun _ _ => trivial⟩

instance : Curt DecodeTableIdxError where
  own := 60
  curt io q n e hq hs := match e with
    | .mk e => Curt.cons (n := n) (e := e) hq (show sane n e from Bare.free n e) (Len.lit ['f', 'a', 'i', 'l', 'e', 'd', ' ', 'd', 'e', 'c', 'o', 'd', 'i', 'n', 'g', ' ', 'T', 'a', 'b', 'l', 'e', 'I', 'd', 'x', ' ', 'i', 'n', 'd', 'e', 'x']) (by decide)

instance : Terse DecodeTableIdxError where
  a := 57
  b := 4
  d := 2
  terse T u n e hu hs := match e with
    | .mk x => (Squat.tuple (k := 19) ((Terse.terse T u n x hu (Bare.free n x))) (by decide)).mono (by decide) (by decide) (by decide)

instance : Measured DecodeTypeIdxError := ⟨fun _ _ => True⟩
instance : Bare DecodeTypeIdxError := ⟨fun _ _ => trivial⟩

instance : Curt DecodeTypeIdxError where
  own := 59
  curt io q n e hq hs := match e with
    | .mk e => Curt.cons (n := n) (e := e) hq (show sane n e from Bare.free n e) (Len.lit ['f', 'a', 'i', 'l', 'e', 'd', ' ', 'd', 'e', 'c', 'o', 'd', 'i', 'n', 'g', ' ', 'T', 'y', 'p', 'e', 'I', 'd', 'x', ' ', 'i', 'n', 'd', 'e', 'x']) (by decide)

instance : Terse DecodeTypeIdxError where
  a := 56
  b := 4
  d := 2
  terse T u n e hu hs := match e with
    | .mk x => (Squat.tuple (k := 18) ((Terse.terse T u n x hu (Bare.free n x))) (by decide)).mono (by decide) (by decide) (by decide)

instance : Dubbed DecodeTypeIdxError := ⟨by decide⟩

instance : Measured DecodeTagIdxError := ⟨fun _ _ => True⟩
instance : Bare DecodeTagIdxError := ⟨fun _ _ => trivial⟩

instance : Curt DecodeTagIdxError where
  own := 58
  curt io q n e hq hs := match e with
    | .mk e => Curt.cons (n := n) (e := e) hq (show sane n e from Bare.free n e) (Len.lit ['f', 'a', 'i', 'l', 'e', 'd', ' ', 'd', 'e', 'c', 'o', 'd', 'i', 'n', 'g', ' ', 'T', 'a', 'g', 'I', 'd', 'x', ' ', 'i', 'n', 'd', 'e', 'x']) (by decide)

instance : Terse DecodeTagIdxError where
  a := 55
  b := 4
  d := 2
  terse T u n e hu hs := match e with
    | .mk x => (Squat.tuple (k := 17) ((Terse.terse T u n x hu (Bare.free n x))) (by decide)).mono (by decide) (by decide) (by decide)

instance : Measured CatchError := ⟨fun _ _ => True⟩
instance : Bare CatchError := ⟨fun _ _ => trivial⟩

instance : Curt CatchError where
  own := 80
  curt io q n e hq hs := match e with
    | .ReadMarkerByte e => Curt.cons (n := n) (e := e) hq (show sane n e from Bare.free n e) (Len.lit ['f', 'a', 'i', 'l', 'e', 'd', ' ', 'r', 'e', 'a', 'd', 'i', 'n', 'g', ' ', 'c', 'a', 't', 'c', 'h', ' ', 'b', 'l', 'o', 'c', 'k', ' ', 'm', 'a', 'r', 'k', 'e', 'r', ' ', 'b', 'y', 't', 'e']) (by decide)
    | .InvalidMarkerByte x0 => Curt.leaf (io := io) (Len.append (Len.lit ['i', 'n', 'v', 'a', 'l', 'i', 'd', ' ', 'm', 'a', 'r', 'k', 'e', 'r', ' ', 'b', 'y', 't', 'e', ':', ' ', 'e', 'x', 'p', 'e', 'c', 't', 'e', 'd', ' ', '0', 'x', '0', '0', ',', ' ', '0', 'x', '0', '1', ',', ' ', '0', 'x', '0', '2', ' ', 'o', 'r', ' ', '0', 'x', '0', '3', ';', ' ', 'g', 'o', 't', ' ']) (.hex8 _)) (by decide)
    | .DecodeTagIdx e => Curt.same (n := n) (e := e) hq (show sane n e from Bare.free n e) (by decide)
    | .DecodeLabelIdx e => Curt.same (n := n) (e := e) hq (show sane n e from Bare.free n e) (by decide)

instance : Terse CatchError where
  a := 96
  b := 6
  d := 3
  terse T u n e hu hs := match e with
    | .ReadMarkerByte x => (Squat.tuple (k := 14) ((Terse.terse T u n x hu (Bare.free n x))) (by decide)).mono (by decide) (by decide) (by decide)
    | .InvalidMarkerByte x => (Squat.tuple (k := 17) ((Terse.terse T u n x hu (Bare.free n x))) (by decide)).mono (by decide) (by decide) (by decide)
    | .DecodeTagIdx x => (Squat.tuple (k := 12) ((Terse.terse T u n x hu (Bare.free n x))) (by decide)).mono (by decide) (by decide) (by decide)
    | .DecodeLabelIdx x => (Squat.tuple (k := 14) ((Terse.terse T u n x hu (Bare.free n x))) (by decide)).mono (by decide) (by decide) (by decide)

instance : Dubbed CatchError := ⟨by decide⟩

instance : Measured BlockTypeError := ⟨fun _ _ => True⟩
instance : Bare BlockTypeError := ⟨fun _ _ => trivial⟩

instance : Curt BlockTypeError where
  own := 60
  curt io q n e hq hs := match e with
    | .ReadMarkerByte _ => Curt.leaf (io := io) (Len.lit ['f', 'a', 'i', 'l', 'e', 'd', ' ', 'r', 'e', 'a', 'd', 'i', 'n', 'g', ' ', 'b', 'l', 'o', 'c', 'k', ' ', 't', 'y', 'p', 'e', ' ', 'm', 'a', 'r', 'k', 'e', 'r', ' ', 'b', 'y', 't', 'e']) (by decide)
    | .DecodeIndex e => Curt.cons (n := n) (e := e) hq (show sane n e from Bare.free n e) (Len.lit ['f', 'a', 'i', 'l', 'e', 'd', ' ', 'd', 'e', 'c', 'o', 'd', 'i', 'n', 'g', ' ', 'b', 'l', 'o', 'c', 'k', ' ', 't', 'y', 'p', 'e', ' ', 'i', 'n', 'd', 'e', 'x']) (by decide)
    | .NegativeTypeIndex x0 => Curt.leaf (io := io) (Len.append (Len.lit ['b', 'l', 'o', 'c', 'k', 't', 'y', 'p', 'e', ' ', 'T', 'y', 'p', 'e', ' ', 'i', 'n', 'd', 'e', 'x', ' ', 'n', 'e', 'g', 'a', 't', 'i', 'v', 'e', ':', ' ']) (.int _)) (by decide)

instance : Terse BlockTypeError where
  a := 50
  b := 4
  d := 2
  terse T u n e hu hs := match e with
    | .ReadMarkerByte x => (Squat.tuple (k := 14) ((Terse.terse T u n x hu (Bare.free n x))) (by decide)).mono (by decide) (by decide) (by decide)
    | .DecodeIndex x => (Squat.tuple (k := 11) ((Terse.terse T u n x hu (Bare.free n x))) (by decide)).mono (by decide) (by decide) (by decide)
    | .NegativeTypeIndex x => (Squat.tuple (k := 17) ((Terse.terse T u n x hu (Bare.free n x))) (by decide)).mono (by decide) (by decide) (by decide)

instance : Measured DecodeHeapTypeError := ⟨fun _ _ => True⟩
instance : Bare DecodeHeapTypeError := ⟨fun _ _ => trivial⟩

instance : Curt DecodeHeapTypeError where
  own := 54
  curt io q n e hq hs := match e with
    | .ReadMarkerByte e => Curt.cons (n := n) (e := e) hq (show sane n e from Bare.free n e) (Len.lit ['f', 'a', 'i', 'l', 'e', 'd', ' ', 'r', 'e', 'a', 'd', 'i', 'n', 'g', ' ', 'H', 'e', 'a', 'p', ' ', 't', 'y', 'p', 'e', ' ', 'm', 'a', 'r', 'k', 'e', 'r', ' ', 'b', 'y', 't', 'e']) (by decide)
    | .DecodeTypeIndex e => Curt.cons (n := n) (e := e) hq (show sane n e from Bare.free n e) (Len.lit ['f', 'a', 'i', 'l', 'e', 'd', ' ', 'd', 'e', 'c', 'o', 'd', 'i', 'n', 'g', ' ', 't', 'y', 'p', 'e', ' ', 'i', 'n', 'd', 'e', 'x']) (by decide)
    | .NegativeTypeIndex x0 => Curt.leaf (io := io) (Len.append (Len.lit ['t', 'y', 'p', 'e', ' ', 'i', 'n', 'd', 'e', 'x', ' ', 'n', 'e', 'g', 'a', 't', 'i', 'v', 'e', ':', ' ']) (.int _)) (by decide)

instance : Terse DecodeHeapTypeError where
  a := 54
  b := 4
  d := 2
  terse T u n e hu hs := match e with
    | .ReadMarkerByte x => (Squat.tuple (k := 14) ((Terse.terse T u n x hu (Bare.free n x))) (by decide)).mono (by decide) (by decide) (by decide)
    | .DecodeTypeIndex x => (Squat.tuple (k := 15) ((Terse.terse T u n x hu (Bare.free n x))) (by decide)).mono (by decide) (by decide) (by decide)
    | .NegativeTypeIndex x => (Squat.tuple (k := 17) ((Terse.terse T u n x hu (Bare.free n x))) (by decide)).mono (by decide) (by decide) (by decide)

instance : Measured ControlError := ⟨fun _ _ => True⟩
instance : Bare ControlError := ⟨fun _ _ => trivial⟩

instance : Curt ControlError where
  own := 168
  curt io q n e hq hs := match e with
    | .LabelIdx e => Curt.cons (n := n) (e := e) hq (show sane n e from Bare.free n e) (Len.lit ['f', 'a', 'i', 'l', 'e', 'd', ' ', 'd', 'e', 'c', 'o', 'd', 'i', 'n', 'g', ' ', 'l', 'a', 'b', 'e', 'l', ' ', 'i', 'n', 'd', 'e', 'x']) (by decide)
    | .DecodeLabelIdxVector e => Curt.cons (n := n) (e := e) hq (show sane n e from Bare.free n e) (Len.lit ['f', 'a', 'i', 'l', 'e', 'd', ' ', 'd', 'e', 'c', 'o', 'd', 'i', 'n', 'g', ' ', 'l', 'a', 'b', 'e', 'l', ' ', 'i', 'n', 'd', 'e', 'x']) (by decide)
    | .FuncIdx _ => Curt.leaf (io := io) (Len.lit ['f', 'a', 'i', 'l', 'e', 'd', ' ', 'd', 'e', 'c', 'o', 'd', 'i', 'n', 'g', ' ', 'f', 'u', 'n', 'c', 't', 'i', 'o', 'n', ' ', 'i', 'n', 'd', 'e', 'x']) (by decide)
    | .TableIdx _ => Curt.leaf (io := io) (Len.lit ['f', 'a', 'i', 'l', 'e', 'd', ' ', 'd', 'e', 'c', 'o', 'd', 'i', 'n', 'g', ' ', 't', 'a', 'b', 'l', 'e', ' ', 'i', 'n', 'd', 'e', 'x']) (by decide)
    | .TypeIdx _ => Curt.leaf (io := io) (Len.lit ['f', 'a', 'i', 'l', 'e', 'd', ' ', 'd', 'e', 'c', 'o', 'd', 'i', 'n', 'g', ' ', 't', 'y', 'p', 'e', ' ', 'i', 'n', 'd', 'e', 'x']) (by decide)
    | .TagIdx _ => Curt.leaf (io := io) (Len.lit ['f', 'a', 'i', 'l', 'e', 'd', ' ', 'd', 'e', 'c', 'o', 'd', 'i', 'n', 'g', ' ', 't', 'a', 'g', ' ', 'i', 'n', 'd', 'e', 'x']) (by decide)
    | .DecodeCatchListError e => Curt.cons (n := n) (e := e) hq (show sane n e from Bare.free n e) (Len.lit ['f', 'a', 'i', 'l', 'e', 'd', ' ', 'd', 'e', 'c', 'o', 'd', 'i', 'n', 'g', ' ', 'C', 'a', 't', 'c', 'h', ' ', 'l', 'i', 's', 't']) (by decide)
    | .BlockType _ => Curt.leaf (io := io) (Len.lit ['f', 'a', 'i', 'l', 'e', 'd', ' ', 'd', 'e', 'c', 'o', 'd', 'i', 'n', 'g', ' ', 'b', 'l', 'o', 'c', 'k', ' ', 't', 'y', 'p', 'e']) (by decide)
    | .UnexpectedElse => Curt.leaf (io := io) (Len.lit ['u', 'n', 'e', 'x', 'p', 'e', 'c', 't', 'e', 'd', ' ', '`', 'E', 'l', 's', 'e', '`', ' ', 't', 'o', 'k', 'e', 'n']) (by decide)
    | .ReadCastNullabilityMarker _ => Curt.leaf (io := io) (Len.lit ['f', 'a', 'i', 'l', 'e', 'd', ' ', 'd', 'e', 'c', 'o', 'd', 'i', 'n', 'g', ' ', 'n', 'u', 'l', 'l', 'a', 'b', 'i', 'l', 'i', 't', 'y', ' ', 'f', 'o', 'r', ' ', 'c', 'a', 's', 't', ' ', 'o', 'p', 'e', 'r', 'a', 't', 'i', 'o', 'n']) (by decide)
    | .InvalidCastNullabilityMarker x0 => Curt.leaf (io := io) (Len.append (Len.lit ['i', 'n', 'v', 'a', 'l', 'i', 'd', ' ', 'c', 'a', 's', 't', ' ', 'o', 'p', 'e', 'r', 'a', 't', 'i', 'o', 'n', ' ', 'm', 'a', 'r', 'k', 'e', 'r', ' ', 'b', 'y', 't', 'e', ':', ' ', 'e', 'x', 'p', 'e', 'c', 't', 'e', 'd', ' ', '0', 'x', '0', '0', ',', ' ', '0', 'x', '0', '1', ',', ' ', '0', 'x', '0', '2', ' ', 'o', 'r', ' ', '0', 'x', '0', '3', ';', ' ', 'g', 'o', 't', ' ']) (.hex8 _)) (by decide)
    | .HeapType e => Curt.cons (n := n) (e := e) hq (show sane n e from Bare.free n e) (Len.lit ['f', 'a', 'i', 'l', 'e', 'd', ' ', 'd', 'e', 'c', 'o', 'd', 'i', 'n', 'g', ' ', 'h', 'e', 'a', 'p', ' ', 't', 'y', 'p', 'e', ' ', 'f', 'o', 'r', ' ', 'c', 'a', 's', 't', ' ', 'o', 'p', 'e', 'r', 'a', 't', 'i', 'o', 'n']) (by decide)

instance : Terse ControlError where
  a := 319
  b := 12
  d := 5
  terse T u n e hu hs := match e with
    | .LabelIdx x => (Squat.tuple (k := 8) ((Terse.terse T u n x hu (Bare.free n x))) (by decide)).mono (by decide) (by decide) (by decide)
    | .DecodeLabelIdxVector x => (Squat.tuple (k := 20) ((Terse.terse T u n x hu (Bare.free n x))) (by decide)).mono (by decide) (by decide) (by decide)
    | .FuncIdx x => (Squat.tuple (k := 7) ((Terse.terse T u n x hu (Bare.free n x))) (by decide)).mono (by decide) (by decide) (by decide)
    | .TableIdx x => (Squat.tuple (k := 8) ((Terse.terse T u n x hu (Bare.free n x))) (by decide)).mono (by decide) (by decide) (by decide)
    | .TypeIdx x => (Squat.tuple (k := 7) ((Terse.terse T u n x hu (Bare.free n x))) (by decide)).mono (by decide) (by decide) (by decide)
    | .TagIdx x => (Squat.tuple (k := 6) ((Terse.terse T u n x hu (Bare.free n x))) (by decide)).mono (by decide) (by decide) (by decide)
    | .DecodeCatchListError x => (Squat.tuple (k := 20) ((Terse.terse T u n x hu (Bare.free n x))) (by decide)).mono (by decide) (by decide) (by decide)
    | .BlockType x => (Squat.tuple (k := 9) ((Terse.terse T u n x hu (Bare.free n x))) (by decide)).mono (by decide) (by decide) (by decide)
    | .UnexpectedElse => ((Fixed.word (k := 14) (by decide)).short).mono (by decide) (by decide) (by decide)
    | .ReadCastNullabilityMarker x => (Squat.tuple (k := 25) ((Terse.terse T u n x hu (Bare.free n x))) (by decide)).mono (by decide) (by decide) (by decide)
    | .InvalidCastNullabilityMarker x => (Squat.tuple (k := 28) ((Terse.terse T u n x hu (Bare.free n x))) (by decide)).mono (by decide) (by decide) (by decide)
    | .HeapType x => (Squat.tuple (k := 8) ((Terse.terse T u n x hu (Bare.free n x))) (by decide)).mono (by decide) (by decide) (by decide)

instance : Measured ReferenceError := ⟨fun _ _ => True⟩
instance : Bare ReferenceError := ⟨fun _ _ => trivial⟩

instance : Curt ReferenceError where
  own := 30
  curt io q n e hq hs := match e with
    | .HeapType _ => Curt.leaf (io := io) (Len.lit ['f', 'a', 'i', 'l', 'e', 'd', ' ', 'd', 'e', 'c', 'o', 'd', 'i', 'n', 'g', ' ', 'h', 'e', 'a', 'p', ' ', 't', 'y', 'p', 'e']) (by decide)
    | .FuncIdx _ => Curt.leaf (io := io) (Len.lit ['f', 'a', 'i', 'l', 'e', 'd', ' ', 'd', 'e', 'c', 'o', 'd', 'i', 'n', 'g', ' ', 'f', 'u', 'n', 'c', 't', 'i', 'o', 'n', ' ', 'i', 'n', 'd', 'e', 'x']) (by decide)
    | .ReadSubOpcode _ => Curt.leaf (io := io) (Len.lit ['f', 'a', 'i', 'l', 'e', 'd', ' ', 'r', 'e', 'a', 'd', 'i', 'n', 'g', ' ', 's', 'u', 'b', '-', 'o', 'p', 'c', 'o', 'd', 'e']) (by decide)

instance : Terse ReferenceError where
  a := 88
  b := 6
  d := 3
  terse T u n e hu hs := match e with
    | .HeapType x => (Squat.tuple (k := 8) ((Terse.terse T u n x hu (Bare.free n x))) (by decide)).mono (by decide) (by decide) (by decide)
    | .FuncIdx x => (Squat.tuple (k := 7) ((Terse.terse T u n x hu (Bare.free n x))) (by decide)).mono (by decide) (by decide) (by decide)
    | .ReadSubOpcode x => (Squat.tuple (k := 13) ((Terse.terse T u n x hu (Bare.free n x))) (by decide)).mono (by decide) (by decide) (by decide)

instance : Measured DecodeDataIdxError := ⟨fun _ _ => True⟩
instance : Bare DecodeDataIdxError := ⟨fun _ _ => trivial⟩

instance : Curt DecodeDataIdxError where
  own := 59
  curt io q n e hq hs := match e with
    | .mk e => Curt.cons (n := n) (e := e) hq (show sane n e from Bare.free n e) (Len.lit ['f', 'a', 'i', 'l', 'e', 'd', ' ', 'd', 'e', 'c', 'o', 'd', 'i', 'n', 'g', ' ', 'D', 'a', 't', 'a', 'I', 'd', 'x', ' ', 'i', 'n', 'd', 'e', 'x']) (by decide)

instance : Terse DecodeDataIdxError where
  a := 56
  b := 4
  d := 2
  terse T u n e hu hs := match e with
    | .mk x => (Squat.tuple (k := 18) ((Terse.terse T u n x hu (Bare.free n x))) (by decide)).mono (by decide) (by decide) (by decide)

instance : Measured DecodeElemIdxError := ⟨fun _ _ => True⟩
instance : Bare DecodeElemIdxError := ⟨fun _ _ => trivial⟩

instance : Curt DecodeElemIdxError where
  own := 59
  curt io q n e hq hs := match e with
    | .mk e => Curt.cons (n := n) (e := e) hq (show sane n e from Bare.free n e) (Len.lit ['f', 'a', 'i', 'l', 'e', 'd', ' ', 'd', 'e', 'c', 'o', 'd', 'i', 'n', 'g', ' ', 'E', 'l', 'e', 'm', 'I', 'd', 'x', ' ', 'i', 'n', 'd', 'e', 'x']) (by decide)

instance : Terse DecodeElemIdxError where
  a := 56
  b := 4
  d := 2
  terse T u n e hu hs := match e with
    | .mk x => (Squat.tuple (k := 18) ((Terse.terse T u n x hu (Bare.free n x))) (by decide)).mono (by decide) (by decide) (by decide)

instance : Measured AggregateError := ⟨fun _ _ => True⟩
instance : Bare AggregateError := ⟨fun _ _ => trivial⟩

instance : Curt AggregateError where
  own := 34
  curt io q n e hq hs := match e with
    | .TypeIdx _ => Curt.leaf (io := io) (Len.lit ['f', 'a', 'i', 'l', 'e', 'd', ' ', 'd', 'e', 'c', 'o', 'd', 'i', 'n', 'g', ' ', 't', 'y', 'p', 'e', ' ', 'i', 'n', 'd', 'e', 'x']) (by decide)
    | .FieldIndex _ => Curt.leaf (io := io) (Len.lit ['f', 'a', 'i', 'l', 'e', 'd', ' ', 'd', 'e', 'c', 'o', 'd', 'i', 'n', 'g', ' ', 'f', 'i', 'e', 'l', 'd', ' ', 'i', 'n', 'd', 'e', 'x']) (by decide)
    | .DataIdx _ => Curt.leaf (io := io) (Len.lit ['f', 'a', 'i', 'l', 'e', 'd', ' ', 'd', 'e', 'c', 'o', 'd', 'i', 'n', 'g', ' ', 'd', 'a', 't', 'a', ' ', 'i', 'n', 'd', 'e', 'x']) (by decide)
    | .ElemIdx _ => Curt.leaf (io := io) (Len.lit ['f', 'a', 'i', 'l', 'e', 'd', ' ', 'd', 'e', 'c', 'o', 'd', 'i', 'n', 'g', ' ', 'e', 'l', 'e', 'm', 'e', 'n', 't', ' ', 'i', 'n', 'd', 'e', 'x']) (by decide)
    | .ArrayFixedLength _ => Curt.leaf (io := io) (Len.lit ['f', 'a', 'i', 'l', 'e', 'd', ' ', 'd', 'e', 'c', 'o', 'd', 'i', 'n', 'g', ' ', 'a', 'r', 'r', 'a', 'y', ' ', 'f', 'i', 'x', 'e', 'd', ' ', 'l', 'e', 'n', 'g', 't', 'h']) (by decide)

instance : Terse AggregateError where
  a := 88
  b := 6
  d := 3
  terse T u n e hu hs := match e with
    | .TypeIdx x => (Squat.tuple (k := 7) ((Terse.terse T u n x hu (Bare.free n x))) (by decide)).mono (by decide) (by decide) (by decide)
    | .FieldIndex x => (Squat.tuple (k := 10) ((Terse.terse T u n x hu (Bare.free n x))) (by decide)).mono (by decide) (by decide) (by decide)
    | .DataIdx x => (Squat.tuple (k := 7) ((Terse.terse T u n x hu (Bare.free n x))) (by decide)).mono (by decide) (by decide) (by decide)
    | .ElemIdx x => (Squat.tuple (k := 7) ((Terse.terse T u n x hu (Bare.free n x))) (by decide)).mono (by decide) (by decide) (by decide)
    | .ArrayFixedLength x => (Squat.tuple (k := 16) ((Terse.terse T u n x hu (Bare.free n x))) (by decide)).mono (by decide) (by decide) (by decide)

instance : Measured InvalidAbsHeapTypeMarkerError := ⟨fun _ _ => True⟩
instance : Bare InvalidAbsHeapTypeMarkerError := ⟨fun _ _ => trivial⟩

instance : Curt InvalidAbsHeapTypeMarkerError where
  own := 476
  curt io q n e hq hs := match e with
    | .mk x0 => Curt.leaf (io := io) (Len.append (Len.append (Len.append (Len.lit ['i', 'n', 'v', 'a', 'l', 'i', 'd', ' ', 'A', 'b', 's', 'H', 'e', 'a', 'p', 'T', 'y', 'p', 'e', ' ', 'm', 'a', 'r', 'k', 'e', 'r', ' ', 'b', 'y', 't', 'e', ' ', '-', ' ', 'e', 'x', 'p', 'e', 'c', 't', 'e', 'd', ' ', 'o', 'n', 'e', ' ', 'o', 'f', ' ']) (show Len 400 (markersFormatted AbsHeapType.debug AbsHeapType.markers) by decide +kernel)) (.lit [';', ' ', 'g', 'o', 't', ' '])) (.hex8 _)) (by decide)

instance : Terse InvalidAbsHeapTypeMarkerError where
  a := 58
  b := 2
  d := 1
  terse T u n e hu hs := match e with
    | .mk x => (Squat.tuple (k := 29) ((Terse.terse T u n x hu (Bare.free n x))) (by decide)).mono (by decide) (by decide) (by decide)

instance : Measured DecodeAbsHeapTypeError := ⟨fun _ _ => True⟩
instance : Bare DecodeAbsHeapTypeError := ⟨fun _ _ => trivial⟩

instance : Curt DecodeAbsHeapTypeError where
  own := 476
  curt io q n e hq hs := match e with
    | .ReadMarkerByte e => Curt.cons (n := n) (e := e) hq (show sane n e from Bare.free n e) (Len.lit ['f', 'a', 'i', 'l', 'e', 'd', ' ', 'r', 'e', 'a', 'd', 'i', 'n', 'g', ' ', 'H', 'e', 'a', 'p', ' ', 't', 'y', 'p', 'e', ' ', 'm', 'a', 'r', 'k', 'e', 'r', ' ', 'b', 'y', 't', 'e']) (by decide)
    | .InvalidMarkerByte e => Curt.same (n := n) (e := e) hq (show sane n e from Bare.free n e) (by decide)

instance : Terse DecodeAbsHeapTypeError where
  a := 92
  b := 4
  d := 2
  terse T u n e hu hs := match e with
    | .ReadMarkerByte x => (Squat.tuple (k := 14) ((Terse.terse T u n x hu (Bare.free n x))) (by decide)).mono (by decide) (by decide) (by decide)
    | .InvalidMarkerByte x => (Squat.tuple (k := 17) ((Terse.terse T u n x hu (Bare.free n x))) (by decide)).mono (by decide) (by decide) (by decide)

instance : Measured DecodeRefTypeError := ⟨fun _ _ => True⟩
instance : Bare DecodeRefTypeError := ⟨fun _ _ => trivial⟩

instance : Curt DecodeRefTypeError where
  own := 476
  curt io q n e hq hs := match e with
    | .Io e => Curt.same (n := n) (e := e) hq (show sane n e from Bare.free n e) (by decide)
    | .DecodeHeapType e => Curt.same (n := n) (e := e) hq (show sane n e from Bare.free n e) (by decide)
    | .InvalidMarkerByte e => Curt.same (n := n) (e := e) hq (show sane n e from Bare.free n e) (by decide)

instance : Terse DecodeRefTypeError where
  a := 134
  b := 6
  d := 3
  terse T u n e hu hs := match e with
    | .Io x => (Squat.tuple (k := 2) ((Terse.terse T u n x hu (Bare.free n x))) (by decide)).mono (by decide) (by decide) (by decide)
    | .DecodeHeapType x => (Squat.tuple (k := 14) ((Terse.terse T u n x hu (Bare.free n x))) (by decide)).mono (by decide) (by decide) (by decide)
    | .InvalidMarkerByte x => (Squat.tuple (k := 17) ((Terse.terse T u n x hu (Bare.free n x))) (by decide)).mono (by decide) (by decide) (by decide)

instance : Measured DecodeValTypeError := ⟨fun _ _ => True⟩
instance : Bare DecodeValTypeError := ⟨fun _ _ => trivial⟩

instance : Curt DecodeValTypeError where
  own := 476
  curt io q n e hq hs := match e with
    | .Io e => Curt.same (n := n) (e := e) hq (show sane n e from Bare.free n e) (by decide)
    | .DecodeRefType e => Curt.same (n := n) (e := e) hq (show sane n e from Bare.free n e) (by decide)

instance : Terse DecodeValTypeError where
  a := 180
  b := 8
  d := 4
  terse T u n e hu hs := match e with
    | .Io x => (Squat.tuple (k := 2) ((Terse.terse T u n x hu (Bare.free n x))) (by decide)).mono (by decide) (by decide) (by decide)
    | .DecodeRefType x => (Squat.tuple (k := 13) ((Terse.terse T u n x hu (Bare.free n x))) (by decide)).mono (by decide) (by decide) (by decide)

instance : Dubbed DecodeValTypeError := ⟨by decide⟩

instance : Measured ParametricError := ⟨fun _ _ => True⟩
instance : Bare ParametricError := ⟨fun _ _ => trivial⟩

instance : Curt ParametricError where
  own := 571
  curt io q n e hq hs := match e with
    | .DecodeList e => Curt.cons (n := n) (e := e) hq (show sane n e from Bare.free n e) (Len.lit ['f', 'a', 'i', 'l', 'e', 'd', ' ', 'd', 'e', 'c', 'o', 'd', 'i', 'n', 'g', ' ', 'v', 'a', 'l', 'u', 'e', ' ', 't', 'y', 'p', 'e', ' ', 'v', 'e', 'c', 't', 'o', 'r']) (by decide)

instance : Terse ParametricError where
  a := 409
  b := 14
  d := 6
  terse T u n e hu hs := match e with
    | .DecodeList x => (Squat.tuple (k := 10) ((Terse.terse T u n x hu (Bare.free n x))) (by decide)).mono (by decide) (by decide) (by decide)

instance : Measured DecodeLocalIdxError := ⟨fun _ _ => True⟩
instance : Bare DecodeLocalIdxError := ⟨fun _ _ => trivial⟩

instance : Curt DecodeLocalIdxError where
  own := 60
  curt io q n e hq hs := match e with
    | .mk e => Curt.cons (n := n) (e := e) hq (show sane n e from Bare.free n e) (Len.lit ['f', 'a', 'i', 'l', 'e', 'd', ' ', 'd', 'e', 'c', 'o', 'd', 'i', 'n', 'g', ' ', 'L', 'o', 'c', 'a', 'l', 'I', 'd', 'x', ' ', 'i', 'n', 'd', 'e', 'x']) (by decide)

instance : Terse DecodeLocalIdxError where
  a := 57
  b := 4
  d := 2
  terse T u n e hu hs := match e with
    | .mk x => (Squat.tuple (k := 19) ((Terse.terse T u n x hu (Bare.free n x))) (by decide)).mono (by decide) (by decide) (by decide)

instance : Measured DecodeGlobalIdxError := ⟨fun _ _ => True⟩
instance : Bare DecodeGlobalIdxError := ⟨fun _ _ => trivial⟩

instance : Curt DecodeGlobalIdxError where
  own := 61
  curt io q n e hq hs := match e with
    | .mk e => Curt.cons (n := n) (e := e) hq (show sane n e from Bare.free n e) (Len.lit ['f', 'a', 'i', 'l', 'e', 'd', ' ', 'd', 'e', 'c', 'o', 'd', 'i', 'n', 'g', ' ', 'G', 'l', 'o', 'b', 'a', 'l', 'I', 'd', 'x', ' ', 'i', 'n', 'd', 'e', 'x']) (by decide)

instance : Terse DecodeGlobalIdxError where
  a := 58
  b := 4
  d := 2
  terse T u n e hu hs := match e with
    | .mk x => (Squat.tuple (k := 20) ((Terse.terse T u n x hu (Bare.free n x))) (by decide)).mono (by decide) (by decide) (by decide)

instance : Measured VariableError := ⟨fun _ _ => True⟩
instance : Bare VariableError := ⟨fun _ _ => trivial⟩

instance : Curt VariableError where
  own := 28
  curt io q n e hq hs := match e with
    | .LocalIdx _ => Curt.leaf (io := io) (Len.lit ['f', 'a', 'i', 'l', 'e', 'd', ' ', 'd', 'e', 'c', 'o', 'd', 'i', 'n', 'g', ' ', 'L', 'o', 'c', 'a', 'l', ' ', 'i', 'n', 'd', 'e', 'x']) (by decide)
    | .GlobalIdx _ => Curt.leaf (io := io) (Len.lit ['f', 'a', 'i', 'l', 'e', 'd', ' ', 'd', 'e', 'c', 'o', 'd', 'i', 'n', 'g', ' ', 'G', 'l', 'o', 'b', 'a', 'l', ' ', 'i', 'n', 'd', 'e', 'x']) (by decide)

instance : Terse VariableError where
  a := 92
  b := 6
  d := 3
  terse T u n e hu hs := match e with
    | .LocalIdx x => (Squat.tuple (k := 8) ((Terse.terse T u n x hu (Bare.free n x))) (by decide)).mono (by decide) (by decide) (by decide)
    | .GlobalIdx x => (Squat.tuple (k := 9) ((Terse.terse T u n x hu (Bare.free n x))) (by decide)).mono (by decide) (by decide) (by decide)

instance : Measured TableError := ⟨fun _ _ => True⟩
instance : Bare TableError := ⟨fun _ _ => trivial⟩

instance : Curt TableError where
  own := 29
  curt io q n e hq hs := match e with
    | .TableIdx _ => Curt.leaf (io := io) (Len.lit ['f', 'a', 'i', 'l', 'e', 'd', ' ', 'd', 'e', 'c', 'o', 'd', 'i', 'n', 'g', ' ', 't', 'a', 'b', 'l', 'e', ' ', 'i', 'n', 'd', 'e', 'x']) (by decide)
    | .ElemIdx _ => Curt.leaf (io := io) (Len.lit ['f', 'a', 'i', 'l', 'e', 'd', ' ', 'd', 'e', 'c', 'o', 'd', 'i', 'n', 'g', ' ', 'e', 'l', 'e', 'm', 'e', 'n', 't', ' ', 'i', 'n', 'd', 'e', 'x']) (by decide)

instance : Terse TableError where
  a := 90
  b := 6
  d := 3
  terse T u n e hu hs := match e with
    | .TableIdx x => (Squat.tuple (k := 8) ((Terse.terse T u n x hu (Bare.free n x))) (by decide)).mono (by decide) (by decide) (by decide)
    | .ElemIdx x => (Squat.tuple (k := 7) ((Terse.terse T u n x hu (Bare.free n x))) (by decide)).mono (by decide) (by decide) (by decide)

instance : Measured DecodeMemIdxError := ⟨fun _ _ => True⟩
instance : Bare DecodeMemIdxError := ⟨fun _ _ => trivial⟩

instance : Curt DecodeMemIdxError where
  own := 58
  curt io q n e hq hs := match e with
    | .mk e => Curt.cons (n := n) (e := e) hq (show sane n e from Bare.free n e) (Len.lit ['f', 'a', 'i', 'l', 'e', 'd', ' ', 'd', 'e', 'c', 'o', 'd', 'i', 'n', 'g', ' ', 'M', 'e', 'm', 'I', 'd', 'x', ' ', 'i', 'n', 'd', 'e', 'x']) (by decide)

instance : Terse DecodeMemIdxError where
  a := 55
  b := 4
  d := 2
  terse T u n e hu hs := match e with
    | .mk x => (Squat.tuple (k := 17) ((Terse.terse T u n x hu (Bare.free n x))) (by decide)).mono (by decide) (by decide) (by decide)

instance : Measured MemargError := ⟨fun _ _ => True⟩
instance : Bare MemargError := ⟨fun _ _ => trivial⟩

instance : Curt MemargError where
  own := 86
  curt io q n e hq hs := match e with
    | .InvalidFlagsBit x0 => Curt.leaf (io := io) (Len.append (Len.append (Len.lit ['I', 'n', 'v', 'a', 'l', 'i', 'd', ' ', 'a', 'l', 'i', 'g', 'n', 'm', 'e', 'n', 't', ' ', 'f', 'l', 'a', 'g', ' ']) (.u32 _)) (.lit [';', ' ', 's', 'h', 'o', 'u', 'l', 'd', ' ', 'b', 'e', ' ', 'l', 'e', 's', 's', ' ', 't', 'h', 'a', 'n', ' ', '2', '^', '7'])) (by decide)
    | .Align _ => Curt.leaf (io := io) (Len.lit ['f', 'a', 'i', 'l', 'e', 'd', ' ', 'd', 'e', 'c', 'o', 'd', 'i', 'n', 'g', ' ', 'a', 'l', 'i', 'g', 'n', 'm', 'e', 'n', 't']) (by decide)
    | .Offset _ => Curt.leaf (io := io) (Len.lit ['f', 'a', 'i', 'l', 'e', 'd', ' ', 'd', 'e', 'c', 'o', 'd', 'i', 'n', 'g', ' ', 'o', 'f', 'f', 's', 'e', 't']) (by decide)
    | .MemIdx e => Curt.cons (n := n) (e := e) hq (show sane n e from Bare.free n e) (Len.lit ['f', 'a', 'i', 'l', 'e', 'd', ' ', 'd', 'e', 'c', 'o', 'd', 'i', 'n', 'g', ' ', 'm', 'e', 'm', 'o', 'r', 'y', ' ', 'i', 'n', 'd', 'e', 'x']) (by decide)

instance : Terse MemargError where
  a := 86
  b := 6
  d := 3
  terse T u n e hu hs := match e with
    | .InvalidFlagsBit x => (Squat.tuple (k := 15) ((Terse.terse T u n x hu (Bare.free n x))) (by decide)).mono (by decide) (by decide) (by decide)
    | .Align x => (Squat.tuple (k := 5) ((Terse.terse T u n x hu (Bare.free n x))) (by decide)).mono (by decide) (by decide) (by decide)
    | .Offset x => (Squat.tuple (k := 6) ((Terse.terse T u n x hu (Bare.free n x))) (by decide)).mono (by decide) (by decide) (by decide)
    | .MemIdx x => (Squat.tuple (k := 6) ((Terse.terse T u n x hu (Bare.free n x))) (by decide)).mono (by decide) (by decide) (by decide)

instance : Measured MemoryError := ⟨fun _ _ => True⟩
instance : Bare MemoryError := ⟨fun _ _ => trivial⟩

instance : Curt MemoryError where
  own := 28
  curt io q n e hq hs := match e with
    | .DecodeMemarg _ => Curt.leaf (io := io) (Len.lit ['f', 'a', 'i', 'l', 'e', 'd', ' ', 'd', 'e', 'c', 'o', 'd', 'i', 'n', 'g', ' ', 'M', 'e', 'm', 'a', 'r', 'g']) (by decide)
    | .DecodeDataIdx _ => Curt.leaf (io := io) (Len.lit ['f', 'a', 'i', 'l', 'e', 'd', ' ', 'd', 'e', 'c', 'o', 'd', 'i', 'n', 'g', ' ', 'd', 'a', 't', 'a', ' ', 'i', 'n', 'd', 'e', 'x']) (by decide)
    | .DecodeMemIdx _ => Curt.leaf (io := io) (Len.lit ['f', 'a', 'i', 'l', 'e', 'd', ' ', 'd', 'e', 'c', 'o', 'd', 'i', 'n', 'g', ' ', 'm', 'e', 'm', 'o', 'r', 'y', ' ', 'i', 'n', 'd', 'e', 'x']) (by decide)

instance : Terse MemoryError where
  a := 131
  b := 8
  d := 4
  terse T u n e hu hs := match e with
    | .DecodeMemarg x => (Squat.tuple (k := 12) ((Terse.terse T u n x hu (Bare.free n x))) (by decide)).mono (by decide) (by decide) (by decide)
    | .DecodeDataIdx x => (Squat.tuple (k := 13) ((Terse.terse T u n x hu (Bare.free n x))) (by decide)).mono (by decide) (by decide) (by decide)
    | .DecodeMemIdx x => (Squat.tuple (k := 12) ((Terse.terse T u n x hu (Bare.free n x))) (by decide)).mono (by decide) (by decide) (by decide)

instance : Measured DecodeFloat32Error := ⟨fun _ _ => True⟩
instance : Bare DecodeFloat32Error := ⟨fun _ _ => trivial⟩

instance : Curt DecodeFloat32Error where
  own := 30
  curt io q n e hq hs := match e with
    | .ReadPayload e => Curt.cons (n := n) (e := e) hq (show sane n e from Bare.free n e) (Len.lit ['f', 'a', 'i', 'l', 'e', 'd', ' ', 'r', 'e', 'a', 'd', 'i', 'n', 'g', ' ', '4', ' ', 'b', 'y', 't', 'e', 's', ' ', 'f', 'o', 'r', ' ', 'f', '3', '2']) (by decide)

instance : Terse DecodeFloat32Error where
  a := 20
  b := 2
  d := 1
  terse T u n e hu hs := match e with
    | .ReadPayload x => (Squat.tuple (k := 11) ((Terse.terse T u n x hu (Bare.free n x))) (by decide)).mono (by decide) (by decide) (by decide)

instance : Measured DecodeFloat64Error := ⟨fun _ _ => True⟩
instance : Bare DecodeFloat64Error := ⟨fun _ _ => trivial⟩

instance : Curt DecodeFloat64Error where
  own := 30
  curt io q n e hq hs := match e with
    | .ReadPayload e => Curt.cons (n := n) (e := e) hq (show sane n e from Bare.free n e) (Len.lit ['f', 'a', 'i', 'l', 'e', 'd', ' ', 'r', 'e', 'a', 'd', 'i', 'n', 'g', ' ', '8', ' ', 'b', 'y', 't', 'e', 's', ' ', 'f', 'o', 'r', ' ', 'f', '6', '4']) (by decide)

instance : Terse DecodeFloat64Error where
  a := 20
  b := 2
  d := 1
  terse T u n e hu hs := match e with
    | .ReadPayload x => (Squat.tuple (k := 11) ((Terse.terse T u n x hu (Bare.free n x))) (by decide)).mono (by decide) (by decide) (by decide)

instance : Measured NumericError := ⟨fun _ _ => True⟩
instance : Bare NumericError := ⟨fun _ _ => trivial⟩

instance : Curt NumericError where
  own := 43
  curt io q n e hq hs := match e with
    | .ReadOpcode _ => Curt.leaf (io := io) (Len.lit ['f', 'a', 'i', 'l', 'e', 'd', ' ', 'r', 'e', 'a', 'd', 'i', 'n', 'g', ' ', '0', 'x', 'F', 'C', '-', 'p', 'r', 'e', 'f', 'i', 'x', 'e', 'd', ' ', 'n', 'u', 'm', 'e', 'r', 'i', 'c', ' ', 'o', 'p', 'c', 'o', 'd', 'e']) (by decide)
    | .DecodeI32 e => Curt.same (n := n) (e := e) hq (show sane n e from Bare.free n e) (by decide)
    | .DecodeI64 e => Curt.same (n := n) (e := e) hq (show sane n e from Bare.free n e) (by decide)
    | .DecodeF32 e => Curt.same (n := n) (e := e) hq (show sane n e from Bare.free n e) (by decide)
    | .DecodeF64 e => Curt.same (n := n) (e := e) hq (show sane n e from Bare.free n e) (by decide)

instance : Terse NumericError where
  a := 48
  b := 4
  d := 2
  terse T u n e hu hs := match e with
    | .ReadOpcode x => (Squat.tuple (k := 10) ((Terse.terse T u n x hu (Bare.free n x))) (by decide)).mono (by decide) (by decide) (by decide)
    | .DecodeI32 x => (Squat.tuple (k := 9) ((Terse.terse T u n x hu (Bare.free n x))) (by decide)).mono (by decide) (by decide) (by decide)
    | .DecodeI64 x => (Squat.tuple (k := 9) ((Terse.terse T u n x hu (Bare.free n x))) (by decide)).mono (by decide) (by decide) (by decide)
    | .DecodeF32 x => (Squat.tuple (k := 9) ((Terse.terse T u n x hu (Bare.free n x))) (by decide)).mono (by decide) (by decide) (by decide)
    | .DecodeF64 x => (Squat.tuple (k := 9) ((Terse.terse T u n x hu (Bare.free n x))) (by decide)).mono (by decide) (by decide) (by decide)

instance : Measured LaneIdxError := ⟨fun _ _ => True⟩
instance : Bare LaneIdxError := ⟨fun _ _ => trivial⟩

instance : Curt LaneIdxError where
  own := 26
  curt io q n e hq hs := match e with
    | .mk e => Curt.cons (n := n) (e := e) hq (show sane n e from Bare.free n e) (Len.lit ['f', 'a', 'i', 'l', 'e', 'd', ' ', 'd', 'e', 'c', 'o', 'd', 'i', 'n', 'g', ' ', 'L', 'a', 'n', 'e', ' ', 'i', 'n', 'd', 'e', 'x']) (by decide)

instance : Terse LaneIdxError where
  a := 21
  b := 2
  d := 1
  terse T u n e hu hs := match e with
    | .mk x => (Squat.tuple (k := 12) ((Terse.terse T u n x hu (Bare.free n x))) (by decide)).mono (by decide) (by decide) (by decide)

instance : Measured VectorError := ⟨fun _ _ => True⟩
instance : Bare VectorError := ⟨fun _ _ => trivial⟩

instance : Curt VectorError where
  own := 86
  curt io q n e hq hs := match e with
    | .ReadOpcode _ => Curt.leaf (io := io) (Len.lit ['f', 'a', 'i', 'l', 'e', 'd', ' ', 'r', 'e', 'a', 'd', 'i', 'n', 'g', ' ', 'V', 'e', 'c', 't', 'o', 'r', ' ', 'o', 'p', 'c', 'o', 'd', 'e']) (by decide)
    | .Memarg e => Curt.same (n := n) (e := e) hq (show sane n e from Bare.free n e) (by decide)
    | .LaneIdx e => Curt.same (n := n) (e := e) hq (show sane n e from Bare.free n e) (by decide)
    | .ReadImmediateBytes _ => Curt.leaf (io := io) (Len.lit ['f', 'a', 'i', 'l', 'e', 'd', ' ', 'r', 'e', 'a', 'd', 'i', 'n', 'g', ' ', 'i', 'm', 'm', 'e', 'd', 'i', 'a', 't', 'e', ' ', 'b', 'y', 't', 'e', 's']) (by decide)
    | .InvalidOpcode x0 => Curt.leaf (io := io) (Len.append (Len.lit ['u', 'n', 'e', 'x', 'p', 'e', 'c', 't', 'e', 'd', ' ', 'V', 'e', 'c', 't', 'o', 'r', ' ', 'o', 'p', 'c', 'o', 'd', 'e', ':', ' ']) (.hex32 _)) (by decide)

instance : Terse VectorError where
  a := 125
  b := 8
  d := 4
  terse T u n e hu hs := match e with
    | .ReadOpcode x => (Squat.tuple (k := 10) ((Terse.terse T u n x hu (Bare.free n x))) (by decide)).mono (by decide) (by decide) (by decide)
    | .Memarg x => (Squat.tuple (k := 6) ((Terse.terse T u n x hu (Bare.free n x))) (by decide)).mono (by decide) (by decide) (by decide)
    | .LaneIdx x => (Squat.tuple (k := 7) ((Terse.terse T u n x hu (Bare.free n x))) (by decide)).mono (by decide) (by decide) (by decide)
    | .ReadImmediateBytes x => (Squat.tuple (k := 18) ((Terse.terse T u n x hu (Bare.free n x))) (by decide)).mono (by decide) (by decide) (by decide)
    | .InvalidOpcode x => (Squat.tuple (k := 13) ((Terse.terse T u n x hu (Bare.free n x))) (by decide)).mono (by decide) (by decide) (by decide)

instance : Measured ParseError := ⟨fun _ _ => True⟩
instance : Bare ParseError := ⟨fun _ _ => trivial⟩

instance : Curt ParseError where
  own := 609
  curt io q n e hq hs := match e with
    | .ReadOpcode e => Curt.cons (n := n) (e := e) hq (show sane n e from Bare.free n e) (Len.lit ['f', 'a', 'i', 'l', 'e', 'd', ' ', 'r', 'e', 'a', 'd', 'i', 'n', 'g', ' ', 'i', 'n', 's', 't', 'r', 'u', 'c', 't', 'i', 'o', 'n', ' ', 'o', 'p', 'c', 'o', 'd', 'e']) (by decide)
    | .Control e => Curt.cons (n := n) (e := e) hq (show sane n e from Bare.free n e) (Len.lit ['f', 'a', 'i', 'l', 'e', 'd', ' ', 'd', 'e', 'c', 'o', 'd', 'i', 'n', 'g', ' ', 'c', 'o', 'n', 't', 'r', 'o', 'l', ' ', 'i', 'n', 's', 't', 'r', 'u', 'c', 't', 'i', 'o', 'n']) (by decide)
    | .Reference e => Curt.cons (n := n) (e := e) hq (show sane n e from Bare.free n e) (Len.lit ['f', 'a', 'i', 'l', 'e', 'd', ' ', 'd', 'e', 'c', 'o', 'd', 'i', 'n', 'g', ' ', 'r', 'e', 'f', 'e', 'r', 'e', 'n', 'c', 'e', ' ', 'i', 'n', 's', 't', 'r', 'u', 'c', 't', 'i', 'o', 'n']) (by decide)
    | .Aggregate e => Curt.cons (n := n) (e := e) hq (show sane n e from Bare.free n e) (Len.lit ['f', 'a', 'i', 'l', 'e', 'd', ' ', 'd', 'e', 'c', 'o', 'd', 'i', 'n', 'g', ' ', 'a', 'g', 'g', 'r', 'e', 'g', 'a', 't', 'e', ' ', 'i', 'n', 's', 't', 'r', 'u', 'c', 't', 'i', 'o', 'n']) (by decide)
    | .Parametric e => Curt.cons (n := n) (e := e) hq (show sane n e from Bare.free n e) (Len.lit ['f', 'a', 'i', 'l', 'e', 'd', ' ', 'd', 'e', 'c', 'o', 'd', 'i', 'n', 'g', ' ', 'p', 'a', 'r', 'a', 'm', 'e', 't', 'r', 'i', 'c', ' ', 'i', 'n', 's', 't', 'r', 'u', 'c', 't', 'i', 'o', 'n']) (by decide)
    | .Variable e => Curt.cons (n := n) (e := e) hq (show sane n e from Bare.free n e) (Len.lit ['f', 'a', 'i', 'l', 'e', 'd', ' ', 'd', 'e', 'c', 'o', 'd', 'i', 'n', 'g', ' ', 'v', 'a', 'r', 'i', 'a', 'b', 'l', 'e', ' ', 'i', 'n', 's', 't', 'r', 'u', 'c', 't', 'i', 'o', 'n']) (by decide)
    | .Table e => Curt.cons (n := n) (e := e) hq (show sane n e from Bare.free n e) (Len.lit ['f', 'a', 'i', 'l', 'e', 'd', ' ', 'd', 'e', 'c', 'o', 'd', 'i', 'n', 'g', ' ', 't', 'a', 'b', 'l', 'e', ' ', 'i', 'n', 's', 't', 'r', 'u', 'c', 't', 'i', 'o', 'n']) (by decide)
    | .Memory e => Curt.cons (n := n) (e := e) hq (show sane n e from Bare.free n e) (Len.lit ['f', 'a', 'i', 'l', 'e', 'd', ' ', 'd', 'e', 'c', 'o', 'd', 'i', 'n', 'g', ' ', 'm', 'e', 'm', 'o', 'r', 'y', ' ', 'i', 'n', 's', 't', 'r', 'u', 'c', 't', 'i', 'o', 'n']) (by decide)
    | .Numeric e => Curt.cons (n := n) (e := e) hq (show sane n e from Bare.free n e) (Len.lit ['f', 'a', 'i', 'l', 'e', 'd', ' ', 'd', 'e', 'c', 'o', 'd', 'i', 'n', 'g', ' ', 'n', 'u', 'm', 'e', 'r', 'i', 'c', ' ', 'i', 'n', 's', 't', 'r', 'u', 'c', 't', 'i', 'o', 'n']) (by decide)
    | .Vector e => Curt.cons (n := n) (e := e) hq (show sane n e from Bare.free n e) (Len.lit ['f', 'a', 'i', 'l', 'e', 'd', ' ', 'd', 'e', 'c', 'o', 'd', 'i', 'n', 'g', ' ', 'v', 'e', 'c', 't', 'o', 'r', ' ', 'i', 'n', 's', 't', 'r', 'u', 'c', 't', 'i', 'o', 'n']) (by decide)
    | .InvalidOpcode x0 => Curt.leaf (io := io) (Len.append (Len.lit ['u', 'n', 'e', 'x', 'p', 'e', 'c', 't', 'e', 'd', ' ', 'o', 'p', 'c', 'o', 'd', 'e', ':', ' ']) (.hex8 _)) (by decide)
    | .InvalidMarkerByteAfterFC x0 => Curt.leaf (io := io) (Len.append (Len.lit ['u', 'n', 'e', 'x', 'p', 'e', 'c', 't', 'e', 'd', ' ', 'o', 'p', 'c', 'o', 'd', 'e', ' ', 'a', 'f', 't', 'e', 'r', ' ', '0', 'x', 'F', 'C', ' ', 'm', 'a', 'r', 'k', 'e', 'r', ' ', 'b', 'y', 't', 'e', ':', ' ']) (.hex32 _)) (by decide)
    | .InvalidMarkerByteAfterFB x0 => Curt.leaf (io := io) (Len.append (Len.lit ['u', 'n', 'e', 'x', 'p', 'e', 'c', 't', 'e', 'd', ' ', 'o', 'p', 'c', 'o', 'd', 'e', ' ', 'a', 'f', 't', 'e', 'r', ' ', '0', 'x', 'F', 'B', ' ', 'm', 'a', 'r', 'k', 'e', 'r', ' ', 'b', 'y', 't', 'e', ':', ' ']) (.hex32 _)) (by decide)

instance : Terse ParseError where
  a := 484
  b := 16
  d := 7
  terse T u n e hu hs := match e with
    | .ReadOpcode x => (Squat.tuple (k := 10) ((Terse.terse T u n x hu (Bare.free n x))) (by decide)).mono (by decide) (by decide) (by decide)
    | .Control x => (Squat.tuple (k := 7) ((Terse.terse T u n x hu (Bare.free n x))) (by decide)).mono (by decide) (by decide) (by decide)
    | .Reference x => (Squat.tuple (k := 9) ((Terse.terse T u n x hu (Bare.free n x))) (by decide)).mono (by decide) (by decide) (by decide)
    | .Aggregate x => (Squat.tuple (k := 9) ((Terse.terse T u n x hu (Bare.free n x))) (by decide)).mono (by decide) (by decide) (by decide)
    | .Parametric x => (Squat.tuple (k := 10) ((Terse.terse T u n x hu (Bare.free n x))) (by decide)).mono (by decide) (by decide) (by decide)
    | .Variable x => (Squat.tuple (k := 8) ((Terse.terse T u n x hu (Bare.free n x))) (by decide)).mono (by decide) (by decide) (by decide)
    | .Table x => (Squat.tuple (k := 5) ((Terse.terse T u n x hu (Bare.free n x))) (by decide)).mono (by decide) (by decide) (by decide)
    | .Memory x => (Squat.tuple (k := 6) ((Terse.terse T u n x hu (Bare.free n x))) (by decide)).mono (by decide) (by decide) (by decide)
    | .Numeric x => (Squat.tuple (k := 7) ((Terse.terse T u n x hu (Bare.free n x))) (by decide)).mono (by decide) (by decide) (by decide)
    | .Vector x => (Squat.tuple (k := 6) ((Terse.terse T u n x hu (Bare.free n x))) (by decide)).mono (by decide) (by decide) (by decide)
    | .InvalidOpcode x => (Squat.tuple (k := 13) ((Terse.terse T u n x hu (Bare.free n x))) (by decide)).mono (by decide) (by decide) (by decide)
    | .InvalidMarkerByteAfterFC x => (Squat.tuple (k := 24) ((Terse.terse T u n x hu (Bare.free n x))) (by decide)).mono (by decide) (by decide) (by decide)
    | .InvalidMarkerByteAfterFB x => (Squat.tuple (k := 24) ((Terse.terse T u n x hu (Bare.free n x))) (by decide)).mono (by decide) (by decide) (by decide)

instance : Measured ParseExpressionError := ⟨fun _ _ => True⟩
instance : Bare ParseExpressionError := ⟨fun _ _ => trivial⟩

instance : Curt ParseExpressionError where
  own := 635
  curt io q n e hq hs := match e with
    | .ParseInstruction e => Curt.cons (n := n) (e := e) hq (show sane n e from Bare.free n e) (Len.lit ['f', 'a', 'i', 'l', 'e', 'd', ' ', 'p', 'a', 'r', 's', 'i', 'n', 'g', ' ', 'i', 'n', 's', 't', 'r', 'u', 'c', 't', 'i', 'o', 'n']) (by decide)
    | .UnexpectedElse => Curt.leaf (io := io) (Len.lit ['u', 'n', 'e', 'x', 'p', 'e', 'c', 't', 'e', 'd', ' ', 'E', 'l', 's', 'e', ' ', 'd', 'e', 'l', 'i', 'm', 'i', 't', 'e', 'r']) (by decide)

instance : Terse ParseExpressionError where
  a := 573
  b := 18
  d := 8
  terse T u n e hu hs := match e with
    | .ParseInstruction x => (Squat.tuple (k := 16) ((Terse.terse T u n x hu (Bare.free n x))) (by decide)).mono (by decide) (by decide) (by decide)
    | .UnexpectedElse => ((Fixed.word (k := 14) (by decide)).short).mono (by decide) (by decide) (by decide)

instance : Dubbed ParseExpressionError := ⟨by decide⟩

instance : Measured DecodeByteVectorError := ⟨fun _ _ => True⟩
instance : Bare DecodeByteVectorError := ⟨fun _ _ => trivial⟩

instance : Curt DecodeByteVectorError where
  own := 59
  curt io q n e hq hs := match e with
    | .DecodeLength e => Curt.cons (n := n) (e := e) hq (show sane n e from Bare.free n e) (Len.lit ['f', 'a', 'i', 'l', 'e', 'd', ' ', 'd', 'e', 'c', 'o', 'd', 'i', 'n', 'g', ' ', 'v', 'e', 'c', 't', 'o', 'r', ' ', 'l', 'e', 'n', 'g', 't', 'h']) (by decide)
    | .ReadElements e => Curt.cons (n := n) (e := e) hq (show sane n e from Bare.free n e) (Len.lit ['f', 'a', 'i', 'l', 'e', 'd', ' ', 'r', 'e', 'a', 'd', 'i', 'n', 'g', ' ', 'v', 'e', 'c', 't', 'o', 'r', ' ', 'e', 'l', 'e', 'm', 'e', 'n', 't', 's']) (by decide)

instance : Terse DecodeByteVectorError where
  a := 50
  b := 4
  d := 2
  terse T u n e hu hs := match e with
    | .DecodeLength x => (Squat.tuple (k := 12) ((Terse.terse T u n x hu (Bare.free n x))) (by decide)).mono (by decide) (by decide) (by decide)
    | .ReadElements x => (Squat.tuple (k := 12) ((Terse.terse T u n x hu (Bare.free n x))) (by decide)).mono (by decide) (by decide) (by decide)

instance : Measured DecodeNameError := ⟨fun n e => match e with
  | .DecodeByteVector _ => True
  | .Utf8 e => sane n e⟩

instance : Curt DecodeNameError where
  own := 100
  curt io q n e hq hs := match e with
    | .DecodeByteVector e => Curt.same (n := n) (e := e) hq (show sane n e from Bare.free n e) (by decide)
    | .Utf8 e => Curt.same (n := n) (e := e) hq (show sane n e from hs) (by decide)

instance : Terse DecodeNameError where
  a := 361
  b := 14
  d := 3
  terse T u n e hu hs := match e with
    | .DecodeByteVector x => (Squat.tuple (k := 16) ((Terse.terse T u n x hu (Bare.free n x))) (by decide)).mono (by decide) (by decide) (by decide)
    | .Utf8 x => (Squat.tuple (k := 4) ((Terse.terse T u n x hu hs)) (by decide)).mono (by decide) (by decide) (by decide)

instance : Measured DecodeStorageTypeError := ⟨fun _ _ => True⟩
instance : Bare DecodeStorageTypeError := ⟨fun _ _ => trivial⟩

instance : Curt DecodeStorageTypeError where
  own := 559
  curt io q n e hq hs := match e with
    | .ReadMarkerByte e => Curt.same (n := n) (e := e) hq (show sane n e from Bare.free n e) (by decide)
    | .DecodeValTypeOrPackType x0 e => Curt.cons (n := n) (e := e) hq (show sane n e from Bare.free n e) (Len.append (Len.lit ['f', 'a', 'i', 'l', 'e', 'd', ' ', 'd', 'e', 'c', 'o', 'd', 'i', 'n', 'g', ' ', 'a', 's', ' ', 'e', 'i', 't', 'h', 'e', 'r', ' ', 'P', 'a', 'c', 'k', 'T', 'y', 'p', 'e', ' ', 'o', 'r', ' ', 'V', 'a', 'l', 'T', 'y', 'p', 'e', ' ', 'w', 'i', 't', 'h', ' ', 'm', 'a', 'r', 'k', 'e', 'r', ' ', 'b', 'y', 't', 'e', ' ']) (.hex8 _)) (by decide)

instance : Terse DecodeStorageTypeError where
  a := 287
  b := 11
  d := 5
  terse T u n e hu hs := match e with
    | .ReadMarkerByte x => (Squat.tuple (k := 14) ((Terse.terse T u n x hu (Bare.free n x))) (by decide)).mono (by decide) (by decide) (by decide)
    | .DecodeValTypeOrPackType x0 x1 => (Squat.struct (Fixed.u8 T _) (Terse.terse T u n x1 hu (Bare.free n _)) (k := 23) (k1 := 6) (k2 := 6) (by decide) (by decide) (by decide)).mono (by decide) (by decide) (by decide)

instance : Measured InvalidMutabilityByteError := ⟨fun _ _ => True⟩
instance : Bare InvalidMutabilityByteError := ⟨fun _ _ => trivial⟩

instance : Curt InvalidMutabilityByteError where
  own := 475
  curt io q n e hq hs := match e with
    | .mk x0 => Curt.leaf (io := io) (Len.append (Len.append (Len.append (Len.lit ['i', 'n', 'v', 'a', 'l', 'i', 'd', ' ', 'M', 'u', 't', 'a', 'b', 'i', 'l', 'i', 't', 'y', ' ', 'm', 'a', 'r', 'k', 'e', 'r', ' ', 'b', 'y', 't', 'e', ' ', '-', ' ', 'e', 'x', 'p', 'e', 'c', 't', 'e', 'd', ' ', 'o', 'n', 'e', ' ', 'o', 'f', ' ']) (show Len 400 (markersFormatted Mut.debug Mut.markers) by decide +kernel)) (.lit [';', ' ', 'g', 'o', 't', ' '])) (.hex8 _)) (by decide)

instance : Terse InvalidMutabilityByteError where
  a := 55
  b := 2
  d := 1
  terse T u n e hu hs := match e with
    | .mk x => (Squat.tuple (k := 26) ((Terse.terse T u n x hu (Bare.free n x))) (by decide)).mono (by decide) (by decide) (by decide)

instance : Measured DecodeFieldTypeError := ⟨fun _ _ => True⟩
instance : Bare DecodeFieldTypeError := ⟨fun _ _ => trivial⟩

instance : Curt DecodeFieldTypeError where
  own := 559
  curt io q n e hq hs := match e with
    | .DecodeStorageType e => Curt.same (n := n) (e := e) hq (show sane n e from Bare.free n e) (by decide)
    | .ReadMutabilityMarkerByte e => Curt.same (n := n) (e := e) hq (show sane n e from Bare.free n e) (by decide)
    | .DecodeMutability e => Curt.same (n := n) (e := e) hq (show sane n e from Bare.free n e) (by decide)

instance : Terse DecodeFieldTypeError where
  a := 357
  b := 13
  d := 6
  terse T u n e hu hs := match e with
    | .DecodeStorageType x => (Squat.tuple (k := 17) ((Terse.terse T u n x hu (Bare.free n x))) (by decide)).mono (by decide) (by decide) (by decide)
    | .ReadMutabilityMarkerByte x => (Squat.tuple (k := 24) ((Terse.terse T u n x hu (Bare.free n x))) (by decide)).mono (by decide) (by decide) (by decide)
    | .DecodeMutability x => (Squat.tuple (k := 16) ((Terse.terse T u n x hu (Bare.free n x))) (by decide)).mono (by decide) (by decide) (by decide)

instance : Dubbed DecodeFieldTypeError := ⟨by decide⟩

instance : Measured DecodeResultTypeError := ⟨fun _ _ => True⟩
instance : Bare DecodeResultTypeError := ⟨fun _ _ => trivial⟩

instance : Curt DecodeResultTypeError where
  own := 538
  curt io q n e hq hs := match e with
    | .DecodeList e => Curt.same (n := n) (e := e) hq (show sane n e from Bare.free n e) (by decide)

instance : Terse DecodeResultTypeError where
  a := 409
  b := 14
  d := 6
  terse T u n e hu hs := match e with
    | .DecodeList x => (Squat.tuple (k := 10) ((Terse.terse T u n x hu (Bare.free n x))) (by decide)).mono (by decide) (by decide) (by decide)

instance : Measured DecodeCompTypeError := ⟨fun _ _ => True⟩
instance : Bare DecodeCompTypeError := ⟨fun _ _ => trivial⟩

instance : Curt DecodeCompTypeError where
  own := 652
  curt io q n e hq hs := match e with
    | .ReadMarkerByte e => Curt.same (n := n) (e := e) hq (show sane n e from Bare.free n e) (by decide)
    | .InvalidMarkerByte x0 => Curt.leaf (io := io) (Len.append (Len.lit ['u', 'n', 'e', 'x', 'p', 'e', 'c', 't', 'e', 'd', ' ', 'C', 'o', 'm', 'p', 'T', 'y', 'p', 'e', ' ', 'm', 'a', 'r', 'k', 'e', 'r', ' ', 'b', 'y', 't', 'e', ':', ' ', 'e', 'x', 'p', 'e', 'c', 't', 'e', 'd', ' ', '0', 'x', '5', 'E', ',', ' ', '0', 'x', '5', 'F', ' ', 'o', 'r', ' ', '0', 'x', '6', '0', ';', ' ', 'g', 'o', 't', ' ']) (.hex8 _)) (by decide)
    | .DecodeStruct e => Curt.cons (n := n) (e := e) hq (show sane n e from Bare.free n e) (Len.lit ['f', 'a', 'i', 'l', 'e', 'd', ' ', 'd', 'e', 'c', 'o', 'd', 'i', 'n', 'g', ' ', 'F', 'i', 'e', 'l', 'd', ' ', 't', 'y', 'p', 'e', ' ', 'l', 'i', 's', 't']) (by decide)
    | .DecodeFuncParameters _ => Curt.leaf (io := io) (Len.lit ['f', 'a', 'i', 'l', 'e', 'd', ' ', 'd', 'e', 'c', 'o', 'd', 'i', 'n', 'g', ' ', 'F', 'u', 'n', 'c', 't', 'i', 'o', 'n', ' ', 't', 'y', 'p', 'e', ' ', 'p', 'a', 'r', 'a', 'm', 'e', 't', 'e', 'r', 's']) (by decide)
    | .DecodeFuncResults _ => Curt.leaf (io := io) (Len.lit ['f', 'a', 'i', 'l', 'e', 'd', ' ', 'd', 'e', 'c', 'o', 'd', 'i', 'n', 'g', ' ', 'F', 'u', 'n', 'c', 't', 'i', 'o', 'n', ' ', 't', 'y', 'p', 'e', ' ', 'r', 'e', 's', 'u', 'l', 't', 's']) (by decide)
    | .DecodeFieldType e => Curt.same (n := n) (e := e) hq (show sane n e from Bare.free n e) (by decide)

instance : Terse DecodeCompTypeError where
  a := 628
  b := 19
  d := 8
  terse T u n e hu hs := match e with
    | .ReadMarkerByte x => (Squat.tuple (k := 14) ((Terse.terse T u n x hu (Bare.free n x))) (by decide)).mono (by decide) (by decide) (by decide)
    | .InvalidMarkerByte x => (Squat.tuple (k := 17) ((Terse.terse T u n x hu (Bare.free n x))) (by decide)).mono (by decide) (by decide) (by decide)
    | .DecodeStruct x => (Squat.tuple (k := 12) ((Terse.terse T u n x hu (Bare.free n x))) (by decide)).mono (by decide) (by decide) (by decide)
    | .DecodeFuncParameters x => (Squat.tuple (k := 20) ((Terse.terse T u n x hu (Bare.free n x))) (by decide)).mono (by decide) (by decide) (by decide)
    | .DecodeFuncResults x => (Squat.tuple (k := 17) ((Terse.terse T u n x hu (Bare.free n x))) (by decide)).mono (by decide) (by decide) (by decide)
    | .DecodeFieldType x => (Squat.tuple (k := 15) ((Terse.terse T u n x hu (Bare.free n x))) (by decide)).mono (by decide) (by decide) (by decide)

instance : Measured InvalidPackTypeMarkerError := ⟨fun _ _ => True⟩
instance : Bare InvalidPackTypeMarkerError := ⟨fun _ _ => trivial⟩

instance : Curt InvalidPackTypeMarkerError where
  own := 473
  curt io q n e hq hs := match e with
    | .mk x0 => Curt.leaf (io := io) (Len.append (Len.append (Len.append (Len.lit ['i', 'n', 'v', 'a', 'l', 'i', 'd', ' ', 'P', 'a', 'c', 'k', 'T', 'y', 'p', 'e', ' ', 'm', 'a', 'r', 'k', 'e', 'r', ' ', 'b', 'y', 't', 'e', ' ', '-', ' ', 'e', 'x', 'p', 'e', 'c', 't', 'e', 'd', ' ', 'o', 'n', 'e', ' ', 'o', 'f', ' ']) (show Len 400 (markersFormatted PackType.debug PackType.markers) by decide +kernel)) (.lit [';', ' ', 'g', 'o', 't', ' '])) (.hex8 _)) (by decide)

instance : Terse InvalidPackTypeMarkerError where
  a := 55
  b := 2
  d := 1
  terse T u n e hu hs := match e with
    | .mk x => (Squat.tuple (k := 26) ((Terse.terse T u n x hu (Bare.free n x))) (by decide)).mono (by decide) (by decide) (by decide)

instance : Measured ParseLimitsError := ⟨fun _ _ => True⟩
instance : Bare ParseLimitsError := ⟨fun _ _ => trivial⟩

instance : Curt ParseLimitsError where
  own := 88
  curt io q n e hq hs := match e with
    | .ReadFlagByte _ => Curt.leaf (io := io) (Len.lit ['f', 'a', 'i', 'l', 'e', 'd', ' ', 'r', 'e', 'a', 'd', 'i', 'n', 'g', ' ', 'f', 'l', 'a', 'g', ' ', 'b', 'y', 't', 'e']) (by decide)
    | .UnexpectedFlagByte x0 => Curt.leaf (io := io) (Len.append (Len.lit ['u', 'n', 'e', 'x', 'p', 'e', 'c', 't', 'e', 'd', ' ', 'L', 'i', 'm', 'i', 't', 's', ' ', 'f', 'l', 'a', 'g', ' ', 'b', 'y', 't', 'e', ':', ' ', 'e', 'x', 'p', 'e', 'c', 't', 'e', 'd', ' ', '0', 'x', '0', '0', ',', ' ', '0', 'x', '0', '1', ',', ' ', '0', 'x', '0', '4', ' ', 'o', 'r', ' ', '0', 'x', '0', '5', ';', ' ', 'g', 'o', 't', ' ']) (.hex8 _)) (by decide)
    | .ReadMinLimit _ => Curt.leaf (io := io) (Len.lit ['f', 'a', 'i', 'l', 'e', 'd', ' ', 'r', 'e', 'a', 'd', 'i', 'n', 'g', ' ', 'm', 'i', 'n', 'i', 'm', 'u', 'm', ' ', 'l', 'i', 'm', 'i', 't']) (by decide)
    | .ReadMaxLimit _ => Curt.leaf (io := io) (Len.lit ['f', 'a', 'i', 'l', 'e', 'd', ' ', 'r', 'e', 'a', 'd', 'i', 'n', 'g', ' ', 'm', 'a', 'x', 'i', 'm', 'u', 'm', ' ', 'l', 'i', 'm', 'i', 't']) (by decide)

instance : Terse ParseLimitsError where
  a := 50
  b := 4
  d := 2
  terse T u n e hu hs := match e with
    | .ReadFlagByte x => (Squat.tuple (k := 12) ((Terse.terse T u n x hu (Bare.free n x))) (by decide)).mono (by decide) (by decide) (by decide)
    | .UnexpectedFlagByte x => (Squat.tuple (k := 18) ((Terse.terse T u n x hu (Bare.free n x))) (by decide)).mono (by decide) (by decide) (by decide)
    | .ReadMinLimit x => (Squat.tuple (k := 12) ((Terse.terse T u n x hu (Bare.free n x))) (by decide)).mono (by decide) (by decide) (by decide)
    | .ReadMaxLimit x => (Squat.tuple (k := 12) ((Terse.terse T u n x hu (Bare.free n x))) (by decide)).mono (by decide) (by decide) (by decide)

instance : Measured DecodeTableTypeError := ⟨fun _ _ => True⟩
instance : Bare DecodeTableTypeError := ⟨fun _ _ => trivial⟩

instance : Curt DecodeTableTypeError where
  own := 476
  curt io q n e hq hs := match e with
    | .DecodeRefType e => Curt.same (n := n) (e := e) hq (show sane n e from Bare.free n e) (by decide)
    | .DecodeLimits e => Curt.same (n := n) (e := e) hq (show sane n e from Bare.free n e) (by decide)

instance : Terse DecodeTableTypeError where
  a := 180
  b := 8
  d := 4
  terse T u n e hu hs := match e with
    | .DecodeRefType x => (Squat.tuple (k := 13) ((Terse.terse T u n x hu (Bare.free n x))) (by decide)).mono (by decide) (by decide) (by decide)
    | .DecodeLimits x => (Squat.tuple (k := 12) ((Terse.terse T u n x hu (Bare.free n x))) (by decide)).mono (by decide) (by decide) (by decide)

instance : Measured DecodeMemoryTypeError := ⟨fun _ _ => True⟩
instance : Bare DecodeMemoryTypeError := ⟨fun _ _ => trivial⟩

instance : Curt DecodeMemoryTypeError where
  own := 115
  curt io q n e hq hs := match e with
    | .mk e => Curt.cons (n := n) (e := e) hq (show sane n e from Bare.free n e) (Len.lit ['f', 'a', 'i', 'l', 'e', 'd', ' ', 'd', 'e', 'c', 'o', 'd', 'i', 'n', 'g', ' ', 'M', 'e', 'm', 'o', 'r', 'y', ' ', 't', 'y', 'p', 'e']) (by decide)

instance : Terse DecodeMemoryTypeError where
  a := 96
  b := 6
  d := 3
  terse T u n e hu hs := match e with
    | .mk x => (Squat.tuple (k := 21) ((Terse.terse T u n x hu (Bare.free n x))) (by decide)).mono (by decide) (by decide) (by decide)

instance : Dubbed DecodeMemoryTypeError := ⟨by decide⟩

instance : Measured DecodeGlobalTypeError := ⟨fun _ _ => True⟩
instance : Bare DecodeGlobalTypeError := ⟨fun _ _ => trivial⟩

instance : Curt DecodeGlobalTypeError where
  own := 502
  curt io q n e hq hs := match e with
    | .DecodeValueType e => Curt.cons (n := n) (e := e) hq (show sane n e from Bare.free n e) (Len.lit ['f', 'a', 'i', 'l', 'e', 'd', ' ', 'd', 'e', 'c', 'o', 'd', 'i', 'n', 'g', ' ', 'V', 'a', 'l', 'u', 'e', ' ', 't', 'y', 'p', 'e']) (by decide)
    | .DecodeMutability _ => Curt.leaf (io := io) (Len.lit ['f', 'a', 'i', 'l', 'e', 'd', ' ', 'd', 'e', 'c', 'o', 'd', 'i', 'n', 'g', ' ', 'M', 'u', 't', 'a', 'b', 'i', 'l', 'i', 't', 'y']) (by decide)
    | .InvalidMutability e => Curt.same (n := n) (e := e) hq (show sane n e from Bare.free n e) (by decide)

instance : Terse DecodeGlobalTypeError where
  a := 236
  b := 10
  d := 5
  terse T u n e hu hs := match e with
    | .DecodeValueType x => (Squat.tuple (k := 15) ((Terse.terse T u n x hu (Bare.free n x))) (by decide)).mono (by decide) (by decide) (by decide)
    | .DecodeMutability x => (Squat.tuple (k := 16) ((Terse.terse T u n x hu (Bare.free n x))) (by decide)).mono (by decide) (by decide) (by decide)
    | .InvalidMutability x => (Squat.tuple (k := 17) ((Terse.terse T u n x hu (Bare.free n x))) (by decide)).mono (by decide) (by decide) (by decide)

instance : Measured DecodeTagTypeError := ⟨fun _ _ => True⟩
instance : Bare DecodeTagTypeError := ⟨fun _ _ => trivial⟩

instance : Curt DecodeTagTypeError where
  own := 87
  curt io q n e hq hs := match e with
    | .ReadMarkerByte e => Curt.same (n := n) (e := e) hq (show sane n e from Bare.free n e) (by decide)
    | .InvalidMarkerByte x0 => Curt.leaf (io := io) (Len.append (Len.append (Len.append (Len.lit ['u', 'n', 'e', 'x', 'p', 'e', 'c', 't', 'e', 'd', ' ', 'T', 'a', 'g', 'T', 'y', 'p', 'e', ' ', 'm', 'a', 'r', 'k', 'e', 'r', ' ', 'b', 'y', 't', 'e', ':', ' ', 'e', 'x', 'p', 'e', 'c', 't', 'e', 'd', ' ']) (.hex (by decide))) (.lit [';', ' ', 'g', 'o', 't', ' '])) (.hex8 _)) (by decide)
    | .DecodeTypeIndex e => Curt.cons (n := n) (e := e) hq (show sane n e from Bare.free n e) (Len.lit ['f', 'a', 'i', 'l', 'e', 'd', ' ', 'd', 'e', 'c', 'o', 'd', 'i', 'n', 'g', ' ', 'T', 'a', 'g', ' ', 't', 'y', 'p', 'e']) (by decide)

instance : Terse DecodeTagTypeError where
  a := 96
  b := 6
  d := 3
  terse T u n e hu hs := match e with
    | .ReadMarkerByte x => (Squat.tuple (k := 14) ((Terse.terse T u n x hu (Bare.free n x))) (by decide)).mono (by decide) (by decide) (by decide)
    | .InvalidMarkerByte x => (Squat.tuple (k := 17) ((Terse.terse T u n x hu (Bare.free n x))) (by decide)).mono (by decide) (by decide) (by decide)
    | .DecodeTypeIndex x => (Squat.tuple (k := 15) ((Terse.terse T u n x hu (Bare.free n x))) (by decide)).mono (by decide) (by decide) (by decide)

instance : Dubbed DecodeTagTypeError := ⟨by decide⟩

instance : Measured DecodeExternTypeError := ⟨fun _ _ => True⟩
instance : Bare DecodeExternTypeError := ⟨fun _ _ => trivial⟩

instance : Curt DecodeExternTypeError where
  own := 502
  curt io q n e hq hs := match e with
    | .ReadMarkerByte e => Curt.same (n := n) (e := e) hq (show sane n e from Bare.free n e) (by decide)
    | .InvalidMarkerByte x0 => Curt.leaf (io := io) (Len.append (Len.lit ['u', 'n', 'e', 'x', 'p', 'e', 'c', 't', 'e', 'd', ' ', 'E', 'x', 't', 'e', 'r', 'n', 'T', 'y', 'p', 'e', ' ', 'm', 'a', 'r', 'k', 'e', 'r', ' ', 'b', 'y', 't', 'e', ':', ' ', 'e', 'x', 'p', 'e', 'c', 't', 'e', 'd', ' ', '0', 'x', '0', '0', ',', ' ', '0', 'x', '0', '1', ',', ' ', '0', 'x', '0', '2', ',', ' ', '0', 'x', '0', '3', ' ', 'o', 'r', ' ', '0', 'x', '0', '4', ';', ' ', 'g', 'o', 't', ' ']) (.hex8 _)) (by decide)
    | .DecodeTypeIndex e => Curt.same (n := n) (e := e) hq (show sane n e from Bare.free n e) (by decide)
    | .DecodeTableType e => Curt.same (n := n) (e := e) hq (show sane n e from Bare.free n e) (by decide)
    | .DecodeMemoryType e => Curt.same (n := n) (e := e) hq (show sane n e from Bare.free n e) (by decide)
    | .DecodeGlobalType e => Curt.same (n := n) (e := e) hq (show sane n e from Bare.free n e) (by decide)
    | .DecodeTagType e => Curt.same (n := n) (e := e) hq (show sane n e from Bare.free n e) (by decide)

instance : Terse DecodeExternTypeError where
  a := 301
  b := 12
  d := 6
  terse T u n e hu hs := match e with
    | .ReadMarkerByte x => (Squat.tuple (k := 14) ((Terse.terse T u n x hu (Bare.free n x))) (by decide)).mono (by decide) (by decide) (by decide)
    | .InvalidMarkerByte x => (Squat.tuple (k := 17) ((Terse.terse T u n x hu (Bare.free n x))) (by decide)).mono (by decide) (by decide) (by decide)
    | .DecodeTypeIndex x => (Squat.tuple (k := 15) ((Terse.terse T u n x hu (Bare.free n x))) (by decide)).mono (by decide) (by decide) (by decide)
    | .DecodeTableType x => (Squat.tuple (k := 15) ((Terse.terse T u n x hu (Bare.free n x))) (by decide)).mono (by decide) (by decide) (by decide)
    | .DecodeMemoryType x => (Squat.tuple (k := 16) ((Terse.terse T u n x hu (Bare.free n x))) (by decide)).mono (by decide) (by decide) (by decide)
    | .DecodeGlobalType x => (Squat.tuple (k := 16) ((Terse.terse T u n x hu (Bare.free n x))) (by decide)).mono (by decide) (by decide) (by decide)
    | .DecodeTagType x => (Squat.tuple (k := 13) ((Terse.terse T u n x hu (Bare.free n x))) (by decide)).mono (by decide) (by decide) (by decide)

instance : Measured DecodeSubTypeError := ⟨fun _ _ => True⟩
instance : Bare DecodeSubTypeError := ⟨fun _ _ => trivial⟩

instance : Curt DecodeSubTypeError where
  own := 685
  curt io q n e hq hs := match e with
    | .Io e => Curt.same (n := n) (e := e) hq (show sane n e from Bare.free n e) (by decide)
    | .DecodeSupertypes e => Curt.cons (n := n) (e := e) hq (show sane n e from Bare.free n e) (Len.lit ['f', 'a', 'i', 'l', 'e', 'd', ' ', 'd', 'e', 'c', 'o', 'd', 'i', 'n', 'g', ' ', 's', 'u', 'p', 'e', 'r', 't', 'y', 'p', 'e', 's']) (by decide)
    | .DecodeCompType e => Curt.cons (n := n) (e := e) hq (show sane n e from Bare.free n e) (Len.lit ['f', 'a', 'i', 'l', 'e', 'd', ' ', 'd', 'e', 'c', 'o', 'd', 'i', 'n', 'g', ' ', 'r', 'e', 'c', 'u', 'r', 's', 'i', 'v', 'e', ' ', 's', 'u', 'b', 't', 'y', 'p', 'e']) (by decide)

instance : Terse DecodeSubTypeError where
  a := 727
  b := 21
  d := 9
  terse T u n e hu hs := match e with
    | .Io x => (Squat.tuple (k := 2) ((Terse.terse T u n x hu (Bare.free n x))) (by decide)).mono (by decide) (by decide) (by decide)
    | .DecodeSupertypes x => (Squat.tuple (k := 16) ((Terse.terse T u n x hu (Bare.free n x))) (by decide)).mono (by decide) (by decide) (by decide)
    | .DecodeCompType x => (Squat.tuple (k := 14) ((Terse.terse T u n x hu (Bare.free n x))) (by decide)).mono (by decide) (by decide) (by decide)

instance : Dubbed DecodeSubTypeError := ⟨by decide⟩

instance : Measured DecodeRecTypeError := ⟨fun _ _ => True⟩
instance : Bare DecodeRecTypeError := ⟨fun _ _ => trivial⟩

instance : Curt DecodeRecTypeError where
  own := 776
  curt io q n e hq hs := match e with
    | .Io e => Curt.same (n := n) (e := e) hq (show sane n e from Bare.free n e) (by decide)
    | .DecodeSubtypes e => Curt.cons (n := n) (e := e) hq (show sane n e from Bare.free n e) (Len.lit ['f', 'a', 'i', 'l', 'e', 'd', ' ', 'd', 'e', 'c', 'o', 'd', 'i', 'n', 'g', ' ', 's', 'u', 'b', 't', 'y', 'p', 'e', 's', ' ', 'l', 'i', 's', 't']) (by decide)
    | .DecodeSubtype e => Curt.cons (n := n) (e := e) hq (show sane n e from Bare.free n e) (Len.lit ['f', 'a', 'i', 'l', 'e', 'd', ' ', 'd', 'e', 'c', 'o', 'd', 'i', 'n', 'g', ' ', 's', 'u', 'b', 't', 'y', 'p', 'e']) (by decide)

instance : Terse DecodeRecTypeError where
  a := 1064
  b := 27
  d := 11
  terse T u n e hu hs := match e with
    | .Io x => (Squat.tuple (k := 2) ((Terse.terse T u n x hu (Bare.free n x))) (by decide)).mono (by decide) (by decide) (by decide)
    | .DecodeSubtypes x => (Squat.tuple (k := 14) ((Terse.terse T u n x hu (Bare.free n x))) (by decide)).mono (by decide) (by decide) (by decide)
    | .DecodeSubtype x => (Squat.tuple (k := 13) ((Terse.terse T u n x hu (Bare.free n x))) (by decide)).mono (by decide) (by decide) (by decide)

instance : Dubbed DecodeRecTypeError := ⟨by decide⟩

instance : Measured DecodeCodeLocalsError := ⟨fun _ _ => True⟩
instance : Bare DecodeCodeLocalsError := ⟨fun _ _ => trivial⟩

instance : Curt DecodeCodeLocalsError where
  own := 508
  curt io q n e hq hs := match e with
    | .DecodeLocalsCount _ => Curt.leaf (io := io) (Len.lit ['f', 'a', 'i', 'l', 'e', 'd', ' ', 'd', 'e', 'c', 'o', 'd', 'i', 'n', 'g', ' ', 'c', 'o', 'u', 'n', 't', ' ', 'o', 'f', ' ', 'f', 'u', 'n', 'c', 't', 'i', 'o', 'n', ' ', 'l', 'o', 'c', 'a', 'l', 's']) (by decide)
    | .LocalsCountOutOfBound x0 x1 => Curt.leaf (io := io) (Len.append (Len.append (Len.append (Len.lit ['t', 'o', 'o', ' ', 'm', 'a', 'n', 'y', ' ', 'l', 'o', 'c', 'a', 'l', 's', ':', ' ', 'e', 'x', 'p', 'e', 'c', 't', 'e', 'd', ' ', 'a', 't', ' ', 'm', 'o', 's', 't', ' ']) (.u64 _)) (.lit [';', ' ', 'g', 'o', 't', ' '])) (.u64 _)) (by decide)
    | .DecodeLocalValType e => Curt.cons (n := n) (e := e) hq (show sane n e from Bare.free n e) (Len.lit ['f', 'a', 'i', 'l', 'e', 'd', ' ', 'd', 'e', 'c', 'o', 'd', 'i', 'n', 'g', ' ', 'l', 'o', 'c', 'a', 'l', ' ', 'V', 'a', 'l', 'u', 'e', ' ', 't', 'y', 'p', 'e']) (by decide)

instance : Terse DecodeCodeLocalsError where
  a := 239
  b := 10
  d := 5
  terse T u n e hu hs := match e with
    | .DecodeLocalsCount x => (Squat.tuple (k := 17) ((Terse.terse T u n x hu (Bare.free n x))) (by decide)).mono (by decide) (by decide) (by decide)
    | .LocalsCountOutOfBound x0 x1 => ((Fixed.two (Fixed.u64 T _) (Fixed.u64 T _) (k := 21) (k1 := 10) (k2 := 13) (by decide) (by decide) (by decide)).short).mono (by decide) (by decide) (by decide)
    | .DecodeLocalValType x => (Squat.tuple (k := 18) ((Terse.terse T u n x hu (Bare.free n x))) (by decide)).mono (by decide) (by decide) (by decide)

instance : Dubbed DecodeCodeLocalsError := ⟨by decide⟩

instance : Measured DecodeCodeError := ⟨fun _ _ => True⟩
instance : Bare DecodeCodeError := ⟨fun _ _ => trivial⟩

instance : Curt DecodeCodeError where
  own := 675
  curt io q n e hq hs := match e with
    | .DecodeFunctionSize _ => Curt.leaf (io := io) (Len.lit ['f', 'a', 'i', 'l', 'e', 'd', ' ', 'd', 'e', 'c', 'o', 'd', 'i', 'n', 'g', ' ', 's', 'i', 'z', 'e', ' ', 'o', 'f', ' ', 'f', 'u', 'n', 'c', 't', 'i', 'o', 'n', ' ', 'c', 'o', 'd', 'e']) (by decide)
    | .DecodeLocalsVector e => Curt.cons (n := n) (e := e) hq (show sane n e from Bare.free n e) (Len.lit ['f', 'a', 'i', 'l', 'e', 'd', ' ', 'd', 'e', 'c', 'o', 'd', 'i', 'n', 'g', ' ', 'l', 'o', 'c', 'a', 'l', 's', ' ', 'v', 'e', 'c', 't', 'o', 'r']) (by decide)
    | .DecodeFunctionBody e => Curt.cons (n := n) (e := e) hq (show sane n e from Bare.free n e) (Len.lit ['f', 'a', 'i', 'l', 'e', 'd', ' ', 'd', 'e', 'c', 'o', 'd', 'i', 'n', 'g', ' ', 'f', 'u', 'n', 'c', 't', 'i', 'o', 'n', ' ', 'b', 'o', 'd', 'y', ' ', 'e', 'x', 'p', 'r', 'e', 's', 's', 'i', 'o', 'n']) (by decide)
    | .EntrySizeMismatch x0 x1 x2 => Curt.leaf (io := io) (Len.append (Len.append (Len.append (Len.append (Len.append (Len.append (Len.lit ['C', 'o', 'd', 'e', ' ', 'e', 'n', 't', 'r', 'y', ' ', 's', 'i', 'z', 'e', ' ', 'm', 'i', 's', 'm', 'a', 't', 'c', 'h', ':', ' ', 'd', 'e', 'c', 'l', 'a', 'r', 'e', 'd', ' ']) (.u32 _)) (.lit [' ', 'b', 'y', 't', 'e', 's', ';', ' ', 'c', 'o', 'n', 's', 'u', 'm', 'e', 'd', ' '])) (.u64 _)) (.lit [' ', '(', 'l', 'e', 'f', 't', 'o', 'v', 'e', 'r', ':', ' '])) (.u64 _)) (.lit [')'])) (by decide)

instance : Terse DecodeCodeError where
  a := 672
  b := 20
  d := 9
  terse T u n e hu hs := match e with
    | .DecodeFunctionSize x => (Squat.tuple (k := 18) ((Terse.terse T u n x hu (Bare.free n x))) (by decide)).mono (by decide) (by decide) (by decide)
    | .DecodeLocalsVector x => (Squat.tuple (k := 18) ((Terse.terse T u n x hu (Bare.free n x))) (by decide)).mono (by decide) (by decide) (by decide)
    | .DecodeFunctionBody x => (Squat.tuple (k := 18) ((Terse.terse T u n x hu (Bare.free n x))) (by decide)).mono (by decide) (by decide) (by decide)
    | .EntrySizeMismatch x0 x1 x2 => ((Fixed.three (Fixed.u32 T _) (Fixed.u64 T _) (Fixed.u64 T _) (k := 17) (k1 := 14) (k2 := 14) (k3 := 14) (by decide) (by decide) (by decide) (by decide)).short).mono (by decide) (by decide) (by decide)

instance : Dubbed DecodeCodeError := ⟨by decide⟩

instance : Measured DecodeCodeSectionError := ⟨fun _ _ => True⟩
instance : Bare DecodeCodeSectionError := ⟨fun _ _ => trivial⟩

instance : Curt DecodeCodeSectionError where
  own := 765
  curt io q n e hq hs := match e with
    | .DecodeList e => Curt.cons (n := n) (e := e) hq (show sane n e from Bare.free n e) (Len.lit ['f', 'a', 'i', 'l', 'e', 'd', ' ', 'd', 'e', 'c', 'o', 'd', 'i', 'n', 'g', ' ', 'C', 'o', 'd', 'e', ' ', 's', 'e', 'c', 't', 'i', 'o', 'n']) (by decide)

instance : Terse DecodeCodeSectionError where
  a := 997
  b := 26
  d := 11
  terse T u n e hu hs := match e with
    | .DecodeList x => (Squat.tuple (k := 10) ((Terse.terse T u n x hu (Bare.free n x))) (by decide)).mono (by decide) (by decide) (by decide)

instance : Measured DecodeCustomSectionError := ⟨fun n e => match e with
  | .DecodeName e => sane n e
  | .Io _ => True⟩

instance : Curt DecodeCustomSectionError where
  own := 135
  curt io q n e hq hs := match e with
    | .DecodeName e => Curt.cons (n := n) (e := e) hq (show sane n e from hs) (Len.lit ['f', 'a', 'i', 'l', 'e', 'd', ' ', 'd', 'e', 'c', 'o', 'd', 'i', 'n', 'g', ' ', 'c', 'u', 's', 't', 'o', 'm', ' ', 's', 'e', 'c', 't', 'i', 'o', 'n', ' ', 'n', 'a', 'm', 'e']) (by decide)
    | .Io e => Curt.cons (n := n) (e := e) hq (show sane n e from Bare.free n e) (Len.lit ['f', 'a', 'i', 'l', 'e', 'd', ' ', 'r', 'e', 'a', 'd', 'i', 'n', 'g', ' ', 'c', 'u', 's', 't', 'o', 'm', ' ', 's', 'e', 'c', 't', 'i', 'o', 'n', ' ', 'c', 'o', 'n', 't', 'e', 'n', 't', 's']) (by decide)

instance : Terse DecodeCustomSectionError where
  a := 436
  b := 16
  d := 4
  terse T u n e hu hs := match e with
    | .DecodeName x => (Squat.tuple (k := 10) ((Terse.terse T u n x hu hs)) (by decide)).mono (by decide) (by decide) (by decide)
    | .Io x => (Squat.tuple (k := 2) ((Terse.terse T u n x hu (Bare.free n x))) (by decide)).mono (by decide) (by decide) (by decide)

instance : Measured DecodeDataSegmentError := ⟨fun _ _ => True⟩
instance : Bare DecodeDataSegmentError := ⟨fun _ _ => trivial⟩

instance : Curt DecodeDataSegmentError where
  own := 91
  curt io q n e hq hs := match e with
    | .DecodeBitfield _ => Curt.leaf (io := io) (Len.lit ['f', 'a', 'i', 'l', 'e', 'd', ' ', 'd', 'e', 'c', 'o', 'd', 'i', 'n', 'g', ' ', 'b', 'i', 't', 'f', 'i', 'e', 'l', 'd']) (by decide)
    | .InvalidBitfield x0 => Curt.leaf (io := io) (Len.append (Len.lit ['i', 'n', 'v', 'a', 'l', 'i', 'd', ' ', 'b', 'i', 't', 'f', 'i', 'e', 'l', 'd', ':', ' ', 'e', 'x', 'p', 'e', 'c', 't', 'e', 'd', ' ', '0', ' ', '(', 'p', 'a', 's', 's', 'i', 'v', 'e', ')', ',', ' ', '1', ' ', 'o', 'r', ' ', '2', ' ', '(', 'a', 'c', 't', 'i', 'v', 'e', ')', ';', ' ', 'g', 'o', 't', ' ']) (.u32 _)) (by decide)
    | .DecodeOffsetExpr _ => Curt.leaf (io := io) (Len.lit ['f', 'a', 'i', 'l', 'e', 'd', ' ', 'd', 'e', 'c', 'o', 'd', 'i', 'n', 'g', ' ', 'o', 'f', 'f', 's', 'e', 't', ' ', 'e', 'x', 'p', 'r', 'e', 's', 's', 'i', 'o', 'n']) (by decide)
    | .DecodeInitVector e => Curt.cons (n := n) (e := e) hq (show sane n e from Bare.free n e) (Len.lit ['f', 'a', 'i', 'l', 'e', 'd', ' ', 'd', 'e', 'c', 'o', 'd', 'i', 'n', 'g', ' ', 'i', 'n', 'i', 't', ' ', 'b', 'y', 't', 'e', ' ', 'v', 'e', 'c', 't', 'o', 'r']) (by decide)
    | .DecodeMemIdx e => Curt.cons (n := n) (e := e) hq (show sane n e from Bare.free n e) (Len.lit ['f', 'a', 'i', 'l', 'e', 'd', ' ', 'd', 'e', 'c', 'o', 'd', 'i', 'n', 'g', ' ', 'M', 'e', 'm', 'o', 'r', 'y', ' ', 'i', 'n', 'd', 'e', 'x']) (by decide)

instance : Terse DecodeDataSegmentError where
  a := 670
  b := 20
  d := 9
  terse T u n e hu hs := match e with
    | .DecodeBitfield x => (Squat.tuple (k := 14) ((Terse.terse T u n x hu (Bare.free n x))) (by decide)).mono (by decide) (by decide) (by decide)
    | .InvalidBitfield x => (Squat.tuple (k := 15) ((Terse.terse T u n x hu (Bare.free n x))) (by decide)).mono (by decide) (by decide) (by decide)
    | .DecodeOffsetExpr x => (Squat.tuple (k := 16) ((Terse.terse T u n x hu (Bare.free n x))) (by decide)).mono (by decide) (by decide) (by decide)
    | .DecodeInitVector x => (Squat.tuple (k := 16) ((Terse.terse T u n x hu (Bare.free n x))) (by decide)).mono (by decide) (by decide) (by decide)
    | .DecodeMemIdx x => (Squat.tuple (k := 12) ((Terse.terse T u n x hu (Bare.free n x))) (by decide)).mono (by decide) (by decide) (by decide)

instance : Dubbed DecodeDataSegmentError := ⟨by decide⟩

instance : Measured DecodeDataSectionError := ⟨fun _ _ => True⟩
instance : Bare DecodeDataSectionError := ⟨fun _ _ => trivial⟩

instance : Curt DecodeDataSectionError where
  own := 181
  curt io q n e hq hs := match e with
    | .DecodeList e => Curt.cons (n := n) (e := e) hq (show sane n e from Bare.free n e) (Len.lit ['f', 'a', 'i', 'l', 'e', 'd', ' ', 'd', 'e', 'c', 'o', 'd', 'i', 'n', 'g', ' ', 'D', 'a', 't', 'a', ' ', 's', 'e', 'c', 't', 'i', 'o', 'n']) (by decide)

instance : Terse DecodeDataSectionError where
  a := 995
  b := 26
  d := 11
  terse T u n e hu hs := match e with
    | .DecodeList x => (Squat.tuple (k := 10) ((Terse.terse T u n x hu (Bare.free n x))) (by decide)).mono (by decide) (by decide) (by decide)

instance : Measured DecodeDataCountSectionError := ⟨fun _ _ => True⟩
instance : Bare DecodeDataCountSectionError := ⟨fun _ _ => trivial⟩

instance : Curt DecodeDataCountSectionError where
  own := 64
  curt io q n e hq hs := match e with
    | .DecodeDataSegmentCount e => Curt.cons (n := n) (e := e) hq (show sane n e from Bare.free n e) (Len.lit ['f', 'a', 'i', 'l', 'e', 'd', ' ', 'd', 'e', 'c', 'o', 'd', 'i', 'n', 'g', ' ', 'D', 'a', 't', 'a', ' ', 'S', 'e', 'g', 'm', 'e', 'n', 't', ' ', 'c', 'o', 'u', 'n', 't']) (by decide)

instance : Terse DecodeDataCountSectionError where
  a := 60
  b := 4
  d := 2
  terse T u n e hu hs := match e with
    | .DecodeDataSegmentCount x => (Squat.tuple (k := 22) ((Terse.terse T u n x hu (Bare.free n x))) (by decide)).mono (by decide) (by decide) (by decide)

instance : Measured DecodeElementKindError := ⟨fun _ _ => True⟩
instance : Bare DecodeElementKindError := ⟨fun _ _ => trivial⟩

instance : Curt DecodeElementKindError where
  own := 44
  curt io q n e hq hs := match e with
    | .Io e => Curt.same (n := n) (e := e) hq (show sane n e from Bare.free n e) (by decide)
    | .InvalidElemKind x0 => Curt.leaf (io := io) (Len.append (Len.lit ['e', 'x', 'p', 'e', 'c', 't', 'e', 'd', ' ', 'b', 'y', 't', 'e', ' ', '0', 'x', '0', '0', ';', ' ', 'g', 'o', 't', ' ']) (.hex8 _)) (by decide)

instance : Terse DecodeElementKindError where
  a := 44
  b := 2
  d := 1
  terse T u n e hu hs := match e with
    | .Io x => (Squat.tuple (k := 2) ((Terse.terse T u n x hu (Bare.free n x))) (by decide)).mono (by decide) (by decide) (by decide)
    | .InvalidElemKind x => (Squat.tuple (k := 15) ((Terse.terse T u n x hu (Bare.free n x))) (by decide)).mono (by decide) (by decide) (by decide)

instance : Measured DecodeElementError := ⟨fun _ _ => True⟩
instance : Bare DecodeElementError := ⟨fun _ _ => trivial⟩

instance : Curt DecodeElementError where
  own := 476
  curt io q n e hq hs := match e with
    | .DecodeBitfield _ => Curt.leaf (io := io) (Len.lit ['f', 'a', 'i', 'l', 'e', 'd', ' ', 'd', 'e', 'c', 'o', 'd', 'i', 'n', 'g', ' ', 'b', 'i', 't', 'f', 'i', 'e', 'l', 'd']) (by decide)
    | .InvalidBitfield x0 => Curt.leaf (io := io) (Len.append (Len.lit ['i', 'n', 'v', 'a', 'l', 'i', 'd', ' ', 'b', 'i', 't', 'f', 'i', 'e', 'l', 'd', ':', ' ', 'e', 'x', 'p', 'e', 'c', 't', 'e', 'd', ' ', 'v', 'a', 'l', 'u', 'e', ' ', 'i', 'n', ' ', 'r', 'a', 'n', 'g', 'e', ' ', '[', '0', ',', '7', ']', ';', ' ', 'g', 'o', 't', ' ']) (.u32 _)) (by decide)
    | .DecodeOffsetExpression _ => Curt.leaf (io := io) (Len.lit ['f', 'a', 'i', 'l', 'e', 'd', ' ', 'd', 'e', 'c', 'o', 'd', 'i', 'n', 'g', ' ', 'o', 'f', 'f', 's', 'e', 't', ' ', 'e', 'x', 'p', 'r', 'e', 's', 's', 'i', 'o', 'n']) (by decide)
    | .DecodeElementKind e => Curt.cons (n := n) (e := e) hq (show sane n e from Bare.free n e) (Len.lit ['f', 'a', 'i', 'l', 'e', 'd', ' ', 'd', 'e', 'c', 'o', 'd', 'i', 'n', 'g', ' ', 'E', 'l', 'e', 'm', 'e', 'n', 't', ' ', 'k', 'i', 'n', 'd']) (by decide)
    | .DecodeElementExpression _ => Curt.leaf (io := io) (Len.lit ['f', 'a', 'i', 'l', 'e', 'd', ' ', 'd', 'e', 'c', 'o', 'd', 'i', 'n', 'g', ' ', 'E', 'l', 'e', 'm', 'e', 'n', 't', ' ', 'e', 'x', 'p', 'r', 'e', 's', 's', 'i', 'o', 'n']) (by decide)
    | .DecodeTableIdx e => Curt.same (n := n) (e := e) hq (show sane n e from Bare.free n e) (by decide)
    | .DecodeReferenceType e => Curt.same (n := n) (e := e) hq (show sane n e from Bare.free n e) (by decide)
    | .DecodeInit _ => Curt.leaf (io := io) (Len.lit ['f', 'a', 'i', 'l', 'e', 'd', ' ', 'd', 'e', 'c', 'o', 'd', 'i', 'n', 'g', ' ', 't', 'a', 'b', 'l', 'e', '.', 'i', 'n', 'i', 't', ' ', 'e', 'x', 'p', 'r', 'e', 's', 's', 'i', 'o', 'n', 's']) (by decide)
    | .DecodeFuncIdxVector e => Curt.same (n := n) (e := e) hq (show sane n e from Bare.free n e) (by decide)

instance : Terse DecodeElementError where
  a := 882
  b := 24
  d := 10
  terse T u n e hu hs := match e with
    | .DecodeBitfield x => (Squat.tuple (k := 14) ((Terse.terse T u n x hu (Bare.free n x))) (by decide)).mono (by decide) (by decide) (by decide)
    | .InvalidBitfield x => (Squat.tuple (k := 15) ((Terse.terse T u n x hu (Bare.free n x))) (by decide)).mono (by decide) (by decide) (by decide)
    | .DecodeOffsetExpression x => (Squat.tuple (k := 22) ((Terse.terse T u n x hu (Bare.free n x))) (by decide)).mono (by decide) (by decide) (by decide)
    | .DecodeElementKind x => (Squat.tuple (k := 17) ((Terse.terse T u n x hu (Bare.free n x))) (by decide)).mono (by decide) (by decide) (by decide)
    | .DecodeElementExpression x => (Squat.tuple (k := 23) ((Terse.terse T u n x hu (Bare.free n x))) (by decide)).mono (by decide) (by decide) (by decide)
    | .DecodeTableIdx x => (Squat.tuple (k := 14) ((Terse.terse T u n x hu (Bare.free n x))) (by decide)).mono (by decide) (by decide) (by decide)
    | .DecodeReferenceType x => (Squat.tuple (k := 19) ((Terse.terse T u n x hu (Bare.free n x))) (by decide)).mono (by decide) (by decide) (by decide)
    | .DecodeInit x => (Squat.tuple (k := 10) ((Terse.terse T u n x hu (Bare.free n x))) (by decide)).mono (by decide) (by decide) (by decide)
    | .DecodeFuncIdxVector x => (Squat.tuple (k := 19) ((Terse.terse T u n x hu (Bare.free n x))) (by decide)).mono (by decide) (by decide) (by decide)

instance : Dubbed DecodeElementError := ⟨by decide⟩

instance : Measured DecodeElementSectionError := ⟨fun _ _ => True⟩
instance : Bare DecodeElementSectionError := ⟨fun _ _ => trivial⟩

instance : Curt DecodeElementSectionError where
  own := 569
  curt io q n e hq hs := match e with
    | .DecodeList e => Curt.cons (n := n) (e := e) hq (show sane n e from Bare.free n e) (Len.lit ['f', 'a', 'i', 'l', 'e', 'd', ' ', 'd', 'e', 'c', 'o', 'd', 'i', 'n', 'g', ' ', 'E', 'l', 'e', 'm', 'e', 'n', 't', ' ', 's', 'e', 'c', 't', 'i', 'o', 'n']) (by decide)

instance : Terse DecodeElementSectionError where
  a := 1239
  b := 30
  d := 12
  terse T u n e hu hs := match e with
    | .DecodeList x => (Squat.tuple (k := 10) ((Terse.terse T u n x hu (Bare.free n x))) (by decide)).mono (by decide) (by decide) (by decide)

instance : Measured InvalidExportDescMarkerByte := ⟨fun _ _ => True⟩
instance : Bare InvalidExportDescMarkerByte := ⟨fun _ _ => trivial⟩

instance : Curt InvalidExportDescMarkerByte where
  own := 131
  curt io q n e hq hs := match e with
    | .mk x0 => Curt.leaf (io := io) (Len.append (Len.lit ['i', 'n', 'v', 'a', 'l', 'i', 'd', ' ', 'E', 'x', 'p', 'o', 'r', 't', 'D', 'e', 's', 'c', ' ', 'm', 'a', 'r', 'k', 'e', 'r', ' ', 'b', 'y', 't', 'e', ':', ' ', 'e', 'x', 'p', 'e', 'c', 't', 'e', 'd', ' ', '0', 'x', '0', '0', ' ', '(', 'f', 'u', 'n', 'c', ')', ',', ' ', '0', 'x', '0', '1', ' ', '(', 't', 'a', 'b', 'l', 'e', ')', ',', ' ', '0', 'x', '0', '2', ' ', '(', 'm', 'e', 'm', ')', ',', ' ', '0', 'x', '0', '3', ' ', '(', 'g', 'l', 'o', 'b', 'a', 'l', ')', ',', ' ', '0', 'x', '0', '4', ' ', '(', 't', 'a', 'g', ')', ';', ' ', 'g', 'o', 't', ' ']) (.hex8 _)) (by decide)

instance : Terse InvalidExportDescMarkerByte where
  a := 56
  b := 2
  d := 1
  terse T u n e hu hs := match e with
    | .mk x => (Squat.tuple (k := 27) ((Terse.terse T u n x hu (Bare.free n x))) (by decide)).mono (by decide) (by decide) (by decide)

instance : Measured DecodeExportError := ⟨fun n e => match e with
  | .DecodeName e => sane n e
  | .ReadDescriptorMarkerByte _ => True
  | .DecodeIndex _ => True
  | .InvalidDescriptorMarkerByte _ => True⟩

instance : Curt DecodeExportError where
  own := 131
  curt io q n e hq hs := match e with
    | .DecodeName e => Curt.same (n := n) (e := e) hq (show sane n e from hs) (by decide)
    | .ReadDescriptorMarkerByte _ => Curt.leaf (io := io) (Len.lit ['f', 'a', 'i', 'l', 'e', 'd', ' ', 'r', 'e', 'a', 'd', 'i', 'n', 'g', ' ', 'E', 'x', 'p', 'o', 'r', 't', ' ', 'd', 'e', 's', 'c', 'r', 'i', 'p', 't', 'o', 'r', ' ', 'm', 'a', 'r', 'k', 'e', 'r', ' ', 'b', 'y', 't', 'e']) (by decide)
    | .DecodeIndex e => Curt.cons (n := n) (e := e) hq (show sane n e from Bare.free n e) (Len.lit ['f', 'a', 'i', 'l', 'e', 'd', ' ', 'r', 'e', 'a', 'd', 'i', 'n', 'g', ' ', 'E', 'x', 'p', 'o', 'r', 't', 'D', 'e', 's', 'c', ' ', 'i', 'n', 'd', 'e', 'x']) (by decide)
    | .InvalidDescriptorMarkerByte e => Curt.same (n := n) (e := e) hq (show sane n e from Bare.free n e) (by decide)

instance : Terse DecodeExportError where
  a := 436
  b := 16
  d := 4
  terse T u n e hu hs := match e with
    | .DecodeName x => (Squat.tuple (k := 10) ((Terse.terse T u n x hu hs)) (by decide)).mono (by decide) (by decide) (by decide)
    | .ReadDescriptorMarkerByte x => (Squat.tuple (k := 24) ((Terse.terse T u n x hu (Bare.free n x))) (by decide)).mono (by decide) (by decide) (by decide)
    | .DecodeIndex x => (Squat.tuple (k := 11) ((Terse.terse T u n x hu (Bare.free n x))) (by decide)).mono (by decide) (by decide) (by decide)
    | .InvalidDescriptorMarkerByte x => (Squat.tuple (k := 27) ((Terse.terse T u n x hu (Bare.free n x))) (by decide)).mono (by decide) (by decide) (by decide)

instance : Dubbed DecodeExportError := ⟨by decide⟩

instance : Measured DecodeExportSectionError := ⟨fun n e => match e with
  | .DecodeList e => sane n e⟩

instance : Curt DecodeExportSectionError where
  own := 223
  curt io q n e hq hs := match e with
    | .DecodeList e => Curt.cons (n := n) (e := e) hq (show sane n e from hs) (Len.lit ['f', 'a', 'i', 'l', 'e', 'd', ' ', 'd', 'e', 'c', 'o', 'd', 'i', 'n', 'g', ' ', 'E', 'x', 'p', 'o', 'r', 't', ' ', 's', 'e', 'c', 't', 'i', 'o', 'n']) (by decide)

instance : Terse DecodeExportSectionError where
  a := 729
  b := 22
  d := 6
  terse T u n e hu hs := match e with
    | .DecodeList x => (Squat.tuple (k := 10) ((Terse.terse T u n x hu hs)) (by decide)).mono (by decide) (by decide) (by decide)

instance : Measured DecodeFunctionSectionError := ⟨fun _ _ => True⟩
instance : Bare DecodeFunctionSectionError := ⟨fun _ _ => trivial⟩

instance : Curt DecodeFunctionSectionError where
  own := 153
  curt io q n e hq hs := match e with
    | .DecodeList e => Curt.cons (n := n) (e := e) hq (show sane n e from Bare.free n e) (Len.lit ['f', 'a', 'i', 'l', 'e', 'd', ' ', 'd', 'e', 'c', 'o', 'd', 'i', 'n', 'g', ' ', 'F', 'u', 'n', 'c', 't', 'i', 'o', 'n', ' ', 's', 'e', 'c', 't', 'i', 'o', 'n']) (by decide)

instance : Terse DecodeFunctionSectionError where
  a := 253
  b := 10
  d := 4
  terse T u n e hu hs := match e with
    | .DecodeList x => (Squat.tuple (k := 10) ((Terse.terse T u n x hu (Bare.free n x))) (by decide)).mono (by decide) (by decide) (by decide)

instance : Measured DecodeGlobalError := ⟨fun _ _ => True⟩
instance : Bare DecodeGlobalError := ⟨fun _ _ => trivial⟩

instance : Curt DecodeGlobalError where
  own := 655
  curt io q n e hq hs := match e with
    | .DecodeGlobalType e => Curt.same (n := n) (e := e) hq (show sane n e from Bare.free n e) (by decide)
    | .DecodeInit e => Curt.cons (n := n) (e := e) hq (show sane n e from Bare.free n e) (Len.lit ['f', 'a', 'i', 'l', 'e', 'd', ' ', 'd', 'e', 'c', 'o', 'd', 'i', 'n', 'g', ' ', 'I', 'n', 'i', 't']) (by decide)

instance : Terse DecodeGlobalError where
  a := 664
  b := 20
  d := 9
  terse T u n e hu hs := match e with
    | .DecodeGlobalType x => (Squat.tuple (k := 16) ((Terse.terse T u n x hu (Bare.free n x))) (by decide)).mono (by decide) (by decide) (by decide)
    | .DecodeInit x => (Squat.tuple (k := 10) ((Terse.terse T u n x hu (Bare.free n x))) (by decide)).mono (by decide) (by decide) (by decide)

instance : Dubbed DecodeGlobalError := ⟨by decide⟩

instance : Measured DecodeGlobalSectionError := ⟨fun _ _ => True⟩
instance : Bare DecodeGlobalSectionError := ⟨fun _ _ => trivial⟩

instance : Curt DecodeGlobalSectionError where
  own := 747
  curt io q n e hq hs := match e with
    | .DecodeList e => Curt.cons (n := n) (e := e) hq (show sane n e from Bare.free n e) (Len.lit ['f', 'a', 'i', 'l', 'e', 'd', ' ', 'd', 'e', 'c', 'o', 'd', 'i', 'n', 'g', ' ', 'G', 'l', 'o', 'b', 'a', 'l', ' ', 's', 'e', 'c', 't', 'i', 'o', 'n']) (by decide)

instance : Terse DecodeGlobalSectionError where
  a := 989
  b := 26
  d := 11
  terse T u n e hu hs := match e with
    | .DecodeList x => (Squat.tuple (k := 10) ((Terse.terse T u n x hu (Bare.free n x))) (by decide)).mono (by decide) (by decide) (by decide)

instance : Measured DecodeImportError := ⟨fun n e => match e with
  | .DecodeModuleName e => sane n e
  | .DecodeItemName e => sane n e
  | .DecodeExternType _ => True⟩

instance : Curt DecodeImportError where
  own := 502
  curt io q n e hq hs := match e with
    | .DecodeModuleName _ => Curt.leaf (io := io) (Len.lit ['f', 'a', 'i', 'l', 'e', 'd', ' ', 'd', 'e', 'c', 'o', 'd', 'i', 'n', 'g', ' ', 'm', 'o', 'd', 'u', 'l', 'e', ' ', 'n', 'a', 'm', 'e']) (by decide)
    | .DecodeItemName _ => Curt.leaf (io := io) (Len.lit ['f', 'a', 'i', 'l', 'e', 'd', ' ', 'd', 'e', 'c', 'o', 'd', 'i', 'n', 'g', ' ', 'i', 't', 'e', 'm', ' ', 'n', 'a', 'm', 'e']) (by decide)
    | .DecodeExternType e => Curt.same (n := n) (e := e) hq (show sane n e from Bare.free n e) (by decide)

instance : Terse DecodeImportError where
  a := 442
  b := 16
  d := 7
  terse T u n e hu hs := match e with
    | .DecodeModuleName x => (Squat.tuple (k := 16) ((Terse.terse T u n x hu hs)) (by decide)).mono (by decide) (by decide) (by decide)
    | .DecodeItemName x => (Squat.tuple (k := 14) ((Terse.terse T u n x hu hs)) (by decide)).mono (by decide) (by decide) (by decide)
    | .DecodeExternType x => (Squat.tuple (k := 16) ((Terse.terse T u n x hu (Bare.free n x))) (by decide)).mono (by decide) (by decide) (by decide)

instance : Dubbed DecodeImportError := ⟨by decide⟩

instance : Measured DecodeImportSectionError := ⟨fun n e => match e with
  | .DecodeList e => sane n e⟩

instance : Curt DecodeImportSectionError where
  own := 594
  curt io q n e hq hs := match e with
    | .DecodeList e => Curt.cons (n := n) (e := e) hq (show sane n e from hs) (Len.lit ['f', 'a', 'i', 'l', 'e', 'd', ' ', 'd', 'e', 'c', 'o', 'd', 'i', 'n', 'g', ' ', 'I', 'm', 'p', 'o', 'r', 't', ' ', 's', 'e', 'c', 't', 'i', 'o', 'n']) (by decide)

instance : Terse DecodeImportSectionError where
  a := 735
  b := 22
  d := 9
  terse T u n e hu hs := match e with
    | .DecodeList x => (Squat.tuple (k := 10) ((Terse.terse T u n x hu hs)) (by decide)).mono (by decide) (by decide) (by decide)

instance : Measured DecodeMemorySectionError := ⟨fun _ _ => True⟩
instance : Bare DecodeMemorySectionError := ⟨fun _ _ => trivial⟩

instance : Curt DecodeMemorySectionError where
  own := 207
  curt io q n e hq hs := match e with
    | .DecodeList e => Curt.cons (n := n) (e := e) hq (show sane n e from Bare.free n e) (Len.lit ['f', 'a', 'i', 'l', 'e', 'd', ' ', 'd', 'e', 'c', 'o', 'd', 'i', 'n', 'g', ' ', 'M', 'e', 'm', 'o', 'r', 'y', ' ', 's', 'e', 'c', 't', 'i', 'o', 'n']) (by decide)

instance : Terse DecodeMemorySectionError where
  a := 309
  b := 12
  d := 5
  terse T u n e hu hs := match e with
    | .DecodeList x => (Squat.tuple (k := 10) ((Terse.terse T u n x hu (Bare.free n x))) (by decide)).mono (by decide) (by decide) (by decide)

instance : Measured DecodeStartSectionError := ⟨fun _ _ => True⟩
instance : Bare DecodeStartSectionError := ⟨fun _ _ => trivial⟩

instance : Curt DecodeStartSectionError where
  own := 88
  curt io q n e hq hs := match e with
    | .mk e => Curt.cons (n := n) (e := e) hq (show sane n e from Bare.free n e) (Len.lit ['f', 'a', 'i', 'l', 'e', 'd', ' ', 'd', 'e', 'c', 'o', 'd', 'i', 'n', 'g', ' ', 'S', 't', 'a', 'r', 't', ' ', 's', 'e', 'c', 't', 'i', 'o', 'n']) (by decide)

instance : Terse DecodeStartSectionError where
  a := 104
  b := 6
  d := 3
  terse T u n e hu hs := match e with
    | .mk x => (Squat.tuple (k := 23) ((Terse.terse T u n x hu (Bare.free n x))) (by decide)).mono (by decide) (by decide) (by decide)

instance : Measured DecodeTableError := ⟨fun _ _ => True⟩
instance : Bare DecodeTableError := ⟨fun _ _ => trivial⟩

instance : Curt DecodeTableError where
  own := 635
  curt io q n e hq hs := match e with
    | .Io e => Curt.same (n := n) (e := e) hq (show sane n e from Bare.free n e) (by decide)
    | .UnexpectedMarkerByte x0 => Curt.leaf (io := io) (Len.append (Len.lit ['u', 'n', 'e', 'x', 'p', 'e', 'c', 't', 'e', 'd', ' ', 'm', 'a', 'r', 'k', 'e', 'r', ' ', 'b', 'y', 't', 'e', ':', ' ', 'e', 'x', 'p', 'e', 'c', 't', 'e', 'd', ' ', '0', 'x', '0', '0', ';', ' ', 'g', 'o', 't', ' ']) (.hex8 _)) (by decide)
    | .DecodeTableType e => Curt.same (n := n) (e := e) hq (show sane n e from Bare.free n e) (by decide)
    | .DecodeExpression e => Curt.same (n := n) (e := e) hq (show sane n e from Bare.free n e) (by decide)

instance : Terse DecodeTableError where
  a := 670
  b := 20
  d := 9
  terse T u n e hu hs := match e with
    | .Io x => (Squat.tuple (k := 2) ((Terse.terse T u n x hu (Bare.free n x))) (by decide)).mono (by decide) (by decide) (by decide)
    | .UnexpectedMarkerByte x => (Squat.tuple (k := 20) ((Terse.terse T u n x hu (Bare.free n x))) (by decide)).mono (by decide) (by decide) (by decide)
    | .DecodeTableType x => (Squat.tuple (k := 15) ((Terse.terse T u n x hu (Bare.free n x))) (by decide)).mono (by decide) (by decide) (by decide)
    | .DecodeExpression x => (Squat.tuple (k := 16) ((Terse.terse T u n x hu (Bare.free n x))) (by decide)).mono (by decide) (by decide) (by decide)

instance : Dubbed DecodeTableError := ⟨by decide⟩

instance : Measured DecodeTableSectionError := ⟨fun _ _ => True⟩
instance : Bare DecodeTableSectionError := ⟨fun _ _ => trivial⟩

instance : Curt DecodeTableSectionError where
  own := 726
  curt io q n e hq hs := match e with
    | .DecodeList e => Curt.cons (n := n) (e := e) hq (show sane n e from Bare.free n e) (Len.lit ['f', 'a', 'i', 'l', 'e', 'd', ' ', 'd', 'e', 'c', 'o', 'd', 'i', 'n', 'g', ' ', 'T', 'a', 'b', 'l', 'e', ' ', 's', 'e', 'c', 't', 'i', 'o', 'n']) (by decide)

instance : Terse DecodeTableSectionError where
  a := 995
  b := 26
  d := 11
  terse T u n e hu hs := match e with
    | .DecodeList x => (Squat.tuple (k := 10) ((Terse.terse T u n x hu (Bare.free n x))) (by decide)).mono (by decide) (by decide) (by decide)

instance : Measured DecodeTagSectionError := ⟨fun _ _ => True⟩
instance : Bare DecodeTagSectionError := ⟨fun _ _ => trivial⟩

instance : Curt DecodeTagSectionError where
  own := 176
  curt io q n e hq hs := match e with
    | .DecodeList e => Curt.cons (n := n) (e := e) hq (show sane n e from Bare.free n e) (Len.lit ['f', 'a', 'i', 'l', 'e', 'd', ' ', 'd', 'e', 'c', 'o', 'd', 'i', 'n', 'g', ' ', 'T', 'a', 'g', ' ', 's', 'e', 'c', 't', 'i', 'o', 'n']) (by decide)

instance : Terse DecodeTagSectionError where
  a := 309
  b := 12
  d := 5
  terse T u n e hu hs := match e with
    | .DecodeList x => (Squat.tuple (k := 10) ((Terse.terse T u n x hu (Bare.free n x))) (by decide)).mono (by decide) (by decide) (by decide)

instance : Measured DecodeTypeSectionError := ⟨fun _ _ => True⟩
instance : Bare DecodeTypeSectionError := ⟨fun _ _ => trivial⟩

instance : Curt DecodeTypeSectionError where
  own := 866
  curt io q n e hq hs := match e with
    | .DecodeList e => Curt.cons (n := n) (e := e) hq (show sane n e from Bare.free n e) (Len.lit ['f', 'a', 'i', 'l', 'e', 'd', ' ', 'd', 'e', 'c', 'o', 'd', 'i', 'n', 'g', ' ', 'T', 'y', 'p', 'e', ' ', 's', 'e', 'c', 't', 'i', 'o', 'n']) (by decide)

instance : Terse DecodeTypeSectionError where
  a := 1445
  b := 33
  d := 13
  terse T u n e hu hs := match e with
    | .DecodeList x => (Squat.tuple (k := 10) ((Terse.terse T u n x hu (Bare.free n x))) (by decide)).mono (by decide) (by decide) (by decide)

instance : Measured InvalidSectionIdError := ⟨fun _ _ => True⟩
instance : Bare InvalidSectionIdError := ⟨fun _ _ => trivial⟩

instance : Curt InvalidSectionIdError where
  own := 462
  curt io q n e hq hs := match e with
    | .mk x0 => Curt.leaf (io := io) (Len.append (Len.append (Len.append (Len.lit ['i', 'n', 'v', 'a', 'l', 'i', 'd', ' ', 's', 'e', 'c', 't', 'i', 'o', 'n', ' ', 'I', 'D', ':', ' ', 'e', 'x', 'p', 'e', 'c', 't', 'e', 'd', ' ', 'o', 'n', 'e', ' ', 'o', 'f', ' ']) (show Len 400 (markersFormatted SectionKind.debug SectionKind.markers) by decide +kernel)) (.lit [';', ' ', 'g', 'o', 't', ' '])) (.hex8 _)) (by decide)

instance : Terse InvalidSectionIdError where
  a := 50
  b := 2
  d := 1
  terse T u n e hu hs := match e with
    | .mk x => (Squat.tuple (k := 21) ((Terse.terse T u n x hu (Bare.free n x))) (by decide)).mono (by decide) (by decide) (by decide)

instance : Measured ParsePreambleError := ⟨fun n e => match e with
  | .Io _ => True
  | .Unexpected b => b.length ≤ 8⟩

theorem unexpected_length {b : Bytes} {q : Nat} (h : b.length ≤ 8) :
    charsIn ["unexpected preamble: expected " ++ hexArray EXPECTED_PREAMBLE ++ "; got " ++ hexArray b] ≤ 400 + q :=
  Curt.leaf (io := fun _ => []) ((((Len.lit ['u', 'n', 'e', 'x', 'p', 'e', 'c', 't', 'e', 'd', ' ', 'p', 'r', 'e', 'a', 'm', 'b', 'l', 'e', ':', ' ', 'e', 'x', 'p', 'e', 'c', 't', 'e', 'd', ' ']).append (show Len 120 (hexArray EXPECTED_PREAMBLE) by decide +kernel)).append (Len.lit [';', ' ', 'g', 'o', 't', ' '])).append
    (Len.hexArray h)) (by decide)

instance : Curt ParsePreambleError where
  own := 400
  curt io q n e hq hs := match e with
    | .Io e => Curt.cons (n := n) (e := e) hq (show sane n e from Bare.free n e) (Len.lit ['f', 'a', 'i', 'l', 'e', 'd', ' ', 'd', 'e', 'c', 'o', 'd', 'i', 'n', 'g', ' ', 'p', 'r', 'e', 'a', 'm', 'b', 'l', 'e']) (by decide)
    | .Unexpected b => unexpected_length hs

theorem Fixed.bytes8 (T : StdText) {b : Bytes} (h : b.length ≤ 8) : Fixed 130 9 (dbg T b) := by
  have := Squat.bytes T 0 h
  exact ⟨Nat.le_trans this.1 (by decide), Nat.le_trans this.2 (by decide)⟩

instance : Terse ParsePreambleError where
  a := 185
  b := 11
  d := 1
  terse T u n e hu hs := match e with
    | .Io x => (Squat.tuple (k := 2) ((Terse.terse T u n x hu (Bare.free n x))) (by decide)).mono (by decide) (by decide) (by decide)
    | .Unexpected x => (Squat.tuple (k := 10) ((Fixed.bytes8 T hs).short) (by decide)).mono (by decide) (by decide) (by decide)

instance : Measured DecodeSectionHeaderError := ⟨fun _ _ => True⟩
instance : Bare DecodeSectionHeaderError := ⟨fun _ _ => trivial⟩

instance : Curt DecodeSectionHeaderError where
  own := 480
  curt io q n e hq hs := match e with
    | .ReadSectionIdByte e => Curt.cons (n := n) (e := e) hq (show sane n e from Bare.free n e) (Len.lit ['f', 'a', 'i', 'l', 'e', 'd', ' ', 'r', 'e', 'a', 'd', 'i', 'n', 'g', ' ', 's', 'e', 'c', 't', 'i', 'o', 'n', ' ', 'I', 'D', ' ', 'b', 'y', 't', 'e']) (by decide)
    | .InvalidSectionId e => Curt.cons (n := n) (e := e) hq (show sane n e from Bare.free n e) (Len.lit ['i', 'n', 'v', 'a', 'l', 'i', 'd', ' ', 's', 'e', 'c', 't', 'i', 'o', 'n', ' ', 'I', 'D']) (by decide)
    | .DecodeSectionSize e => Curt.cons (n := n) (e := e) hq (show sane n e from Bare.free n e) (Len.lit ['f', 'a', 'i', 'l', 'e', 'd', ' ', 'd', 'e', 'c', 'o', 'd', 'i', 'n', 'g', ' ', 's', 'e', 'c', 't', 'i', 'o', 'n', ' ', 's', 'i', 'z', 'e']) (by decide)

instance : Terse DecodeSectionHeaderError where
  a := 83
  b := 4
  d := 2
  terse T u n e hu hs := match e with
    | .ReadSectionIdByte x => (Squat.tuple (k := 17) ((Terse.terse T u n x hu (Bare.free n x))) (by decide)).mono (by decide) (by decide) (by decide)
    | .InvalidSectionId x => (Squat.tuple (k := 16) ((Terse.terse T u n x hu (Bare.free n x))) (by decide)).mono (by decide) (by decide) (by decide)
    | .DecodeSectionSize x => (Squat.tuple (k := 17) ((Terse.terse T u n x hu (Bare.free n x))) (by decide)).mono (by decide) (by decide) (by decide)

instance : Measured DecodeModuleError := ⟨fun n e => match e with
  | .ParsePreamble e => sane n e
  | .CodeFuncEntriesLenMismatch x0 x1 => x0 < 2 ^ 64 ∧ x1 < 2 ^ 64
  | .DataCountMismatch x0 _ => x0 < 2 ^ 64
  | .SectionOutOfOrder _ _ => True
  | .DuplicateSection _ => True
  | .SectionSizeMismatch _ _ _ => True
  | .DataCountDatasLenMismatch x0 _ => x0 < 2 ^ 64
  | .DecodeDataCount => True
  | .DataIndexWithoutDataCount => True
  | .DecodeSectionHeader _ => True
  | .DecodeCustomSection e => sane n e
  | .DecodeTypeSection _ => True
  | .DecodeImportSection e => sane n e
  | .DecodeFunctionSection _ => True
  | .DecodeTableSection _ => True
  | .DecodeMemorySection _ => True
  | .DecodeGlobalSection _ => True
  | .DecodeExportSection e => sane n e
  | .DecodeStartSection _ => True
  | .DecodeElementSection _ => True
  | .DecodeDatacountSection _ => True
  | .DecodeCodeSection _ => True
  | .DecodeDataSection _ => True
  | .DecodeTagSection _ => True⟩

instance : Curt DecodeModuleError where
  own := 866
  curt io q n e hq hs := match e with
    | .ParsePreamble e => Curt.same (n := n) (e := e) hq (show sane n e from hs) (by decide)
    | .CodeFuncEntriesLenMismatch _ _ => Curt.leaf (io := io) (Len.lit ['n', 'u', 'm', 'b', 'e', 'r', ' ', 'o', 'f', ' ', 'C', 'o', 'd', 'e', ' ', 'e', 'n', 't', 'r', 'i', 'e', 's', ' ', 'd', 'o', 'e', 's', ' ', 'n', 'o', 't', ' ', 'm', 'a', 't', 'c', 'h', ' ', 'n', 'u', 'm', 'b', 'e', 'r', ' ', 'o', 'f', ' ', 'F', 'u', 'n', 'c', 't', 'i', 'o', 'n', ' ', 'e', 'n', 't', 'r', 'i', 'e', 's']) (by decide)
    | .DataCountMismatch _ _ => Curt.leaf (io := io) (Len.lit ['n', 'u', 'm', 'b', 'e', 'r', ' ', 'o', 'f', ' ', 'D', 'a', 't', 'a', ' ', 's', 'e', 'g', 'm', 'e', 'n', 't', 's', ' ', 'd', 'o', 'e', 's', ' ', 'n', 'o', 't', ' ', 'm', 'a', 't', 'c', 'h', ' ', 't', 'h', 'e', ' ', 'D', 'a', 't', 'a', ' ', 'C', 'o', 'u', 'n', 't', ' ', 's', 'e', 'c', 't', 'i', 'o', 'n']) (by decide)
    | .SectionOutOfOrder x0 x1 => Curt.leaf (io := io) (Len.append (Len.append (Len.append (Len.lit ['o', 'u', 't', ' ', 'o', 'f', ' ', 'o', 'r', 'd', 'e', 'r', ' ', 's', 'e', 'c', 't', 'i', 'o', 'n', ':', ' ']) (.kind _)) (.lit [' ', 'c', 'a', 'n', 'n', 'o', 't', ' ', 'a', 'p', 'p', 'e', 'a', 'r', ' ', 'a', 'f', 't', 'e', 'r', ' '])) (.kind _)) (by decide)
    | .DuplicateSection x0 => Curt.leaf (io := io) (Len.append (Len.lit ['e', 'n', 'c', 'o', 'u', 'n', 't', 'e', 'r', 'e', 'd', ' ', 'd', 'u', 'p', 'l', 'i', 'c', 'a', 't', 'e', ' ', 's', 'e', 'c', 't', 'i', 'o', 'n', ':', ' ']) (.kind _)) (by decide)
    | .SectionSizeMismatch x0 x1 x2 => Curt.leaf (io := io) (Len.append (Len.append (Len.append (Len.append (Len.kind _) (.lit [' ', 's', 'e', 'c', 't', 'i', 'o', 'n', ' ', 's', 'i', 'z', 'e', ' ', 'm', 'i', 's', 'm', 'a', 't', 'c', 'h', ':', ' ', 'd', 'e', 'c', 'l', 'a', 'r', 'e', 'd', ' '])) (.u32 _)) (.lit [' ', 'b', 'y', 't', 'e', 's', ';', ' ', 'g', 'o', 't', ' '])) (.u64 _)) (by decide)
    | .DataCountDatasLenMismatch x0 x1 => Curt.leaf (io := io) (Len.append (Len.append (Len.append (Len.lit ['D', 'a', 't', 'a', ' ', 'C', 'o', 'u', 'n', 't', ' ', 's', 'e', 'c', 't', 'i', 'o', 'n', ' ', 'd', 'o', 'e', 's', ' ', 'n', 'o', 't', ' ', 'm', 'a', 't', 'c', 'h', ' ', 'D', 'a', 't', 'a', 's', ' ', 'l', 'e', 'n', 'g', 't', 'h', ':', ' ', 'd', 'e', 'c', 'l', 'a', 'r', 'e', 'd', ' ']) (.u32 _)) (.lit [';', ' ', 'g', 'o', 't', ' '])) (.nat hs)) (by decide)
    | .DecodeDataCount => Curt.leaf (io := io) (Len.lit ['f', 'a', 'i', 'l', 'e', 'd', ' ', 'd', 'e', 'c', 'o', 'd', 'i', 'n', 'g', ' ', 'D', 'a', 't', 'a', ' ', 'C', 'o', 'u', 'n', 't', ' ', 's', 'e', 'c', 't', 'i', 'o', 'n']) (by decide)
    | .DataIndexWithoutDataCount => Curt.leaf (io := io) (Len.lit ['D', 'a', 't', 'a', ' ', 'i', 'n', 'd', 'e', 'x', ' ', 'w', 'a', 's', ' ', 'p', 'r', 'e', 's', 'e', 'n', 't', ' ', 'i', 'n', ' ', 'C', 'o', 'd', 'e', ' ', 's', 'e', 'c', 't', 'i', 'o', 'n', ',', ' ', 'b', 'u', 't', ' ', 'D', 'a', 't', 'a', ' ', 'C', 'o', 'u', 'n', 't', ' ', 's', 'e', 'c', 't', 'i', 'o', 'n', ' ', 'i', 's', ' ', 'm', 'i', 's', 's', 'i', 'n', 'g']) (by decide)
    | .DecodeSectionHeader e => Curt.same (n := n) (e := e) hq (show sane n e from Bare.free n e) (by decide)
    | .DecodeCustomSection e => Curt.same (n := n) (e := e) hq (show sane n e from hs) (by decide)
    | .DecodeTypeSection e => Curt.same (n := n) (e := e) hq (show sane n e from Bare.free n e) (by decide)
    | .DecodeImportSection e => Curt.same (n := n) (e := e) hq (show sane n e from hs) (by decide)
    | .DecodeFunctionSection e => Curt.same (n := n) (e := e) hq (show sane n e from Bare.free n e) (by decide)
    | .DecodeTableSection e => Curt.same (n := n) (e := e) hq (show sane n e from Bare.free n e) (by decide)
    | .DecodeMemorySection e => Curt.same (n := n) (e := e) hq (show sane n e from Bare.free n e) (by decide)
    | .DecodeGlobalSection e => Curt.same (n := n) (e := e) hq (show sane n e from Bare.free n e) (by decide)
    | .DecodeExportSection e => Curt.same (n := n) (e := e) hq (show sane n e from hs) (by decide)
    | .DecodeStartSection e => Curt.same (n := n) (e := e) hq (show sane n e from Bare.free n e) (by decide)
    | .DecodeElementSection e => Curt.same (n := n) (e := e) hq (show sane n e from Bare.free n e) (by decide)
    | .DecodeDatacountSection e => Curt.same (n := n) (e := e) hq (show sane n e from Bare.free n e) (by decide)
    | .DecodeCodeSection e => Curt.same (n := n) (e := e) hq (show sane n e from Bare.free n e) (by decide)
    | .DecodeDataSection e => Curt.same (n := n) (e := e) hq (show sane n e from Bare.free n e) (by decide)
    | .DecodeTagSection e => Curt.same (n := n) (e := e) hq (show sane n e from Bare.free n e) (by decide)

instance : Terse DecodeModuleError where
  a := 1603
  b := 35
  d := 14
  terse T u n e hu hs := match e with
    | .ParsePreamble x => (Squat.tuple (k := 13) ((Terse.terse T u n x hu hs)) (by decide)).mono (by decide) (by decide) (by decide)
    | .CodeFuncEntriesLenMismatch x0 x1 => ((Fixed.two (Fixed.nat hs.1) (Fixed.nat hs.2) (k := 26) (k1 := 9) (k2 := 9) (by decide) (by decide) (by decide)).short).mono (by decide) (by decide) (by decide)
    | .DataCountMismatch x0 x1 => ((Fixed.two (Fixed.nat hs) (Fixed.u32 T _) (k := 17) (k1 := 9) (k2 := 10) (by decide) (by decide) (by decide)).short).mono (by decide) (by decide) (by decide)
    | .SectionOutOfOrder x0 x1 => ((Fixed.two (Fixed.kind T _) (Fixed.kind T _) (k := 17) (k1 := 7) (k2 := 8) (by decide) (by decide) (by decide)).short).mono (by decide) (by decide) (by decide)
    | .DuplicateSection x => (Squat.tuple (k := 16) ((Terse.terse T u n x hu (Bare.free n x))) (by decide)).mono (by decide) (by decide) (by decide)
    | .SectionSizeMismatch x0 x1 x2 => ((Fixed.three (Fixed.kind T _) (Fixed.u32 T _) (Fixed.u64 T _) (k := 19) (k1 := 12) (k2 := 8) (k3 := 3) (by decide) (by decide) (by decide) (by decide)).short).mono (by decide) (by decide) (by decide)
    | .DataCountDatasLenMismatch x0 x1 => ((Fixed.two (Fixed.nat hs) (Fixed.u32 T _) (k := 25) (k1 := 9) (k2 := 10) (by decide) (by decide) (by decide)).short).mono (by decide) (by decide) (by decide)
    | .DecodeDataCount => (Fixed.short (a := 100) (b := 4) ⟨by show (Dbg.tuple "DecodeDataCount" [.tuple "TryFromIntError" [.unit]]).pretty.length ≤ 100; decide, by show breaks (Dbg.tuple "DecodeDataCount" [.tuple "TryFromIntError" [.unit]]).pretty ≤ 4; decide⟩).mono (by decide) (by decide) (by decide)
    | .DataIndexWithoutDataCount => ((Fixed.word (k := 25) (by decide)).short).mono (by decide) (by decide) (by decide)
    | .DecodeSectionHeader x => (Squat.tuple (k := 19) ((Terse.terse T u n x hu (Bare.free n x))) (by decide)).mono (by decide) (by decide) (by decide)
    | .DecodeCustomSection x => (Squat.tuple (k := 19) ((Terse.terse T u n x hu hs)) (by decide)).mono (by decide) (by decide) (by decide)
    | .DecodeTypeSection x => (Squat.tuple (k := 17) ((Terse.terse T u n x hu (Bare.free n x))) (by decide)).mono (by decide) (by decide) (by decide)
    | .DecodeImportSection x => (Squat.tuple (k := 19) ((Terse.terse T u n x hu hs)) (by decide)).mono (by decide) (by decide) (by decide)
    | .DecodeFunctionSection x => (Squat.tuple (k := 21) ((Terse.terse T u n x hu (Bare.free n x))) (by decide)).mono (by decide) (by decide) (by decide)
    | .DecodeTableSection x => (Squat.tuple (k := 18) ((Terse.terse T u n x hu (Bare.free n x))) (by decide)).mono (by decide) (by decide) (by decide)
    | .DecodeMemorySection x => (Squat.tuple (k := 19) ((Terse.terse T u n x hu (Bare.free n x))) (by decide)).mono (by decide) (by decide) (by decide)
    | .DecodeGlobalSection x => (Squat.tuple (k := 19) ((Terse.terse T u n x hu (Bare.free n x))) (by decide)).mono (by decide) (by decide) (by decide)
    | .DecodeExportSection x => (Squat.tuple (k := 19) ((Terse.terse T u n x hu hs)) (by decide)).mono (by decide) (by decide) (by decide)
    | .DecodeStartSection x => (Squat.tuple (k := 18) ((Terse.terse T u n x hu (Bare.free n x))) (by decide)).mono (by decide) (by decide) (by decide)
    | .DecodeElementSection x => (Squat.tuple (k := 20) ((Terse.terse T u n x hu (Bare.free n x))) (by decide)).mono (by decide) (by decide) (by decide)
    | .DecodeDatacountSection x => (Squat.tuple (k := 22) ((Terse.terse T u n x hu (Bare.free n x))) (by decide)).mono (by decide) (by decide) (by decide)
    | .DecodeCodeSection x => (Squat.tuple (k := 17) ((Terse.terse T u n x hu (Bare.free n x))) (by decide)).mono (by decide) (by decide) (by decide)
    | .DecodeDataSection x => (Squat.tuple (k := 17) ((Terse.terse T u n x hu (Bare.free n x))) (by decide)).mono (by decide) (by decide) (by decide)
    | .DecodeTagSection x => (Squat.tuple (k := 16) ((Terse.terse T u n x hu (Bare.free n x))) (by decide)).mono (by decide) (by decide) (by decide)

end Wadec
