import Verif.Spec.Reader

/-! What std requires of `read_buf` (C87): it is another way of reading the same stream. -/

namespace Wadec

open LawfulRead

/-- `own n` hands out, of what `r` delivers, between one and `n` of the next bytes; nothing only at the end of file; or the reader's
failure, at its place; `Interrupted` may come at any time, but (like chunks) not for ever: something, `weight`, gets less. -/
structure Buffers {R : Type} [LawfulRead R] (own : Nat → R → Except IoError (List UInt8) × R) : Prop where
  data : ∀ {n r b bs r'}, 0 < n → own n r = (.ok (b :: bs), r') →
    (b :: bs).length ≤ n ∧ Adv (b :: bs) r r' ∧ Read.weight r' < Read.weight r
  eof : ∀ {n r r'}, 0 < n → own n r = (.ok [], r') → avail r = [] ∧ fin r = .eof
  int : ∀ {n r r'}, 0 < n → own n r = (.error .interrupted, r') → Adv [] r r' ∧ Read.weight r' < Read.weight r
  err : ∀ {n r e r'}, 0 < n → e ≠ .interrupted → own n r = (.error e, r') → avail r = [] ∧ fin r = .fail e

end Wadec
