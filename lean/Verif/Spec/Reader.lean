import Verif.Model.Io

/-! What a reader delivers: the vocabulary in which the properties talk about inputs.

`avail r` are the bytes the reader `r` delivers before its first end of file or failure, however
it fragments them and however often it reports `Interrupted` in between; `fin r` is how they end.
The laws of `LawfulRead` say what that means for `read`; they hold for the user's reader (`Src`) and
for `Read::take` and `Read::chain` over any such reader (Proof/Reader.lean). -/

namespace Wadec

/-- How the available bytes of a reader end. -/
inductive End where
  | eof
  | fail (e : IoError)
  deriving DecidableEq, Repr

/-- The error `read_exact` reports when it hits that end. -/
def End.toErr : End → IoError
  | .eof => .unexpectedEof
  | .fail e => e

/-- A reader with a description of what it delivers.  `Adv bs r r'`: `r'` is `r` after exactly the
bytes `bs` have been taken from it (and nothing has been lost). -/
class LawfulRead (R : Type) extends Read R where
  /-- bytes delivered before the first end of file or failure -/
  avail : R → List UInt8
  /-- how they end -/
  fin : R → End
  Adv : List UInt8 → R → R → Prop
  adv_nil : ∀ r, Adv [] r r
  adv_trans : ∀ {bs bs' r r' r''}, Adv bs r r' → Adv bs' r' r'' → Adv (bs ++ bs') r r''
  adv_avail : ∀ {bs r r'}, Adv bs r r' → avail r = bs ++ avail r'
  adv_fin : ∀ {bs r r'}, Adv bs r r' → fin r' = fin r
  /-- `Interrupted` is never the end: the retry loops skip it -/
  fin_ne : ∀ r, fin r ≠ .fail .interrupted
  avail_le : ∀ r, (avail r).length ≤ weight r
  adv_reserve : ∀ n r, Adv [] r (reserve n r)
  read_data : ∀ {n r b bs r'}, 0 < n → read n r = (.ok (b :: bs), r') →
    (b :: bs).length ≤ n ∧ Adv (b :: bs) r r' ∧ weight r' < weight r
  read_eof : ∀ {n r r'}, 0 < n → read n r = (.ok [], r') → avail r = [] ∧ fin r = .eof
  read_int : ∀ {n r r'}, 0 < n → read n r = (.error .interrupted, r') →
    Adv [] r r' ∧ weight r' < weight r
  read_err : ∀ {n r e r'}, 0 < n → e ≠ .interrupted → read n r = (.error e, r') →
    avail r = [] ∧ fin r = .fail e

open LawfulRead

/-! ### The user's reader -/

/-- Bytes a script delivers before its first end of file or (non-`Interrupted`) failure. -/
def Src.bytes : List Ev → List UInt8
  | [] => []
  | .fail .interrupted :: t => Src.bytes t
  | .fail _ :: _ => []
  | .data [] :: _ => []
  | .data (b :: bs) :: t => (b :: bs) ++ Src.bytes t

/-- How the bytes of a script end. -/
def Src.ending : List Ev → End
  | [] => .eof
  | .fail .interrupted :: t => Src.ending t
  | .fail e :: _ => .fail e
  | .data [] :: _ => .eof
  | .data (_ :: _) :: t => Src.ending t

/-- All bytes a script can still deliver, also behind an end of file or a failure. -/
def Src.stream : List Ev → List UInt8
  | [] => []
  | .data bs :: t => bs ++ Src.stream t
  | .fail _ :: t => Src.stream t

/-- `d` decodes exactly the grammar `B`: whenever it succeeds it has consumed an encoding of the
value it returns, and nothing else; and on any input that starts with an encoding of a value it
returns that value, leaving the reader exactly behind the encoding. -/
def Decodes {R ε α : Type} [LawfulRead R] (d : Dec R ε α) (B : List UInt8 → α → Prop) : Prop :=
  (∀ r v r', d r = (.ok v, r') → ∃ bs, B bs v ∧ avail r = bs ++ avail r' ∧ fin r' = fin r) ∧
  (∀ r bs rest v, B bs v → avail r = bs ++ rest →
    ∃ r', d r = (.ok v, r') ∧ avail r' = rest ∧ fin r' = fin r)

end Wadec
