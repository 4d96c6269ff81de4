import Verif.Spec.Reader
import Verif.Spec.Binary

/-! LEB128 in closed form (independent of the recursive grammar `BU`/`BS` of Spec/Binary.lean):
which byte strings are terminated, which number they stand for, and the encodings of a number.
Used by C06 and C07. -/

namespace Wadec.Spec

/-- Every byte carries a continuation bit. -/
def AllCont (bs : Bytes) : Prop := ∀ b ∈ bs, 128 ≤ b.toNat

/-- Continuation bytes followed by one byte without continuation bit. -/
def Terminated (bs : Bytes) : Prop := ∃ cs b, bs = cs ++ [b] ∧ AllCont cs ∧ b.toNat < 128

/-- The bytes end inside what may be a reference type: after a 0x63 or 0x64 and at most four bytes of
the type index that follows it. -/
def Dangling (bs : Bytes) : Prop :=
  ∃ pre b cs, bs = pre ++ b :: cs ∧ (b = 0x63 ∨ b = 0x64) ∧ AllCont cs ∧ cs.length ≤ 4

/-- The number a byte string stands for as unsigned LEB128: seven bits per byte, least significant
byte first. -/
def uleb : Bytes → Nat
  | [] => 0
  | b :: bs => b.toNat % 128 + 128 * uleb bs

/-- The number a byte string stands for as signed LEB128: as above, but the last byte is a seven
bit two's complement number. -/
def sleb : Bytes → Int
  | [] => 0
  | [b] => if b.toNat % 128 < 64 then b.toNat % 128 else (b.toNat % 128 : Int) - 128
  | b :: bs => (b.toNat % 128 : Int) + 128 * sleb bs

/-- The unsigned LEB128 encoding of `n` on exactly `k` bytes, padded with zeros if `n` is small. -/
def uEnc : Nat → Nat → Bytes
  | 0, _ => []
  | 1, n => [UInt8.ofNat (n % 128)]
  | k + 2, n => UInt8.ofNat (128 + n % 128) :: uEnc (k + 1) (n / 128)

/-- The signed LEB128 encoding of `n` on exactly `k` bytes, padded with copies of the sign. -/
def sEnc : Nat → Int → Bytes
  | 0, _ => []
  | 1, n => [UInt8.ofNat (n % 128).toNat]
  | k + 2, n => UInt8.ofNat (128 + (n % 128).toNat) :: sEnc (k + 1) (n / 128)

/-- The errors of an integer decoder `d` of at most `n` bytes, classified: an I/O error exactly if
the input ends inside the integer, and then the reader's own; `long` exactly if the first `n` bytes
all carry a continuation bit; `bad` exactly if the integer is terminated in time but not `inRange`;
and no other error. -/
structure Classifies {R ε α : Type} [LawfulRead R] (d : Dec R ε α) (n : Nat) (io : IoError → ε)
    (long bad : ε) (inRange : Bytes → Prop) : Prop where
  io_iff : ∀ r e, (∃ r', d r = (.err (io e), r')) ↔
    AllCont (LawfulRead.avail r) ∧ (LawfulRead.avail r).length < n ∧ e = (LawfulRead.fin r).toErr
  long_iff : ∀ r, (∃ r', d r = (.err long, r')) ↔
    n ≤ (LawfulRead.avail r).length ∧ AllCont ((LawfulRead.avail r).take n)
  bad_iff : ∀ r, (∃ r', d r = (.err bad, r')) ↔
    ∃ bs rest, LawfulRead.avail r = bs ++ rest ∧ Terminated bs ∧ bs.length ≤ n ∧ ¬ inRange bs
  only : ∀ r e r', d r = (.err e, r') → (∃ x, e = io x) ∨ e = long ∨ e = bad

end Wadec.Spec
