import Verif.Spec.Reader

/-! What std requires of `read_exact` (C81). -/

namespace Wadec

open LawfulRead

/-- The contract of `read_exact`, for a reader that delivers `avail r` and ends with `fin r`: it fills the
buffer with the next bytes if there are enough, and returns the reader's error otherwise (of kind
`UnexpectedEof` at the end of file).  How much it has consumed in the latter case is left open, as it is
by std. -/
structure Fills {R : Type} [LawfulRead R] (exact : Nat → Dec R IoError (List UInt8)) : Prop where
  ok : ∀ {n r bs rest}, 0 < n → avail r = bs ++ rest → bs.length = n →
    ∃ r', exact n r = (.ok bs, r') ∧ avail r' = rest ∧ fin r' = fin r
  err : ∀ {n r}, (avail r).length < n → ∃ r', exact n r = (.err (fin r).toErr, r')

end Wadec
