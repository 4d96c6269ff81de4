import Verif.Model.Display
import Verif.Spec.Reader
import Verif.Spec.Binary

/-! How to read an error message (C58): the hexadecimal numbers that occur in it. -/

namespace Wadec.Spec

open LawfulRead

/-- The value of an upper case hexadecimal digit. -/
def hexDigit (c : Char) : Option Nat :=
  if '0' ≤ c ∧ c ≤ '9' then some (c.toNat - '0'.toNat)
  else if 'A' ≤ c ∧ c ≤ 'F' then some (c.toNat - 'A'.toNat + 10)
  else none

/-- The number written at the start of a text, continuing `n`, and the text behind it. -/
def hexNumber (n : Nat) : List Char → Nat × List Char
  | [] => (n, [])
  | c :: t =>
    match hexDigit c with
    | some d => hexNumber (16 * n + d) t
    | none => (n, c :: t)

theorem hexNumber_length (n : Nat) (t : List Char) : (hexNumber n t).2.length ≤ t.length := by
  induction t generalizing n with
  | nil => simp [hexNumber]
  | cons c t ih =>
    simp only [hexNumber]
    split
    · exact Nat.le_trans (ih _) (by simp)
    · exact Nat.le_refl _

/-- The numbers written as `0x…` in a text, in order. -/
def hexNumbers : List Char → List Nat
  | '0' :: 'x' :: t =>
    have := hexNumber_length 0 t
    (hexNumber 0 t).1 :: hexNumbers (hexNumber 0 t).2
  | _ :: t => hexNumbers t
  | [] => []
termination_by t => t.length
decreasing_by all_goals (simp; try omega)

/-- The numbers shown by the last of an error's messages (the innermost cause that is displayed). -/
def shows {ε : Type} [ErrText ε] (e : ε) : List Nat :=
  hexNumbers ((ErrText.chain (fun _ => []) e).getLastD "").toList

/-- Where a `p` precedes and a `q` follows, `d` fails with `bad c` on exactly the bytes `c` that are not
among `listed`; and the message of `bad c` shows the bytes in `listed`, and then `c`. -/
def Truthful {ε α R : Type} [ErrText ε] [LawfulRead R] (d : Dec R ε α) (bad : UInt8 → ε)
    (p q : List UInt8 → Prop) : Prop :=
  ∃ listed : List UInt8,
    (∀ c, shows (bad c) = listed.map UInt8.toNat ++ [c.toNat]) ∧
    ∀ r b c t, p b → q t → avail r = b ++ c :: t → ((∃ r', d r = (.err (bad c), r')) ↔ c ∉ listed)

/-! ### Decimal numbers (C59) -/

/-- The value of a decimal digit. -/
def digit (c : Char) : Option Nat := if '0' ≤ c ∧ c ≤ '9' then some (c.toNat - '0'.toNat) else none

/-- The decimal numbers in a text, where `n` is the number that its first digits continue, if any. -/
def numbersFrom : Option Nat → List Char → List Nat
  | n, [] => n.toList
  | n, c :: t =>
    match digit c with
    | some d => numbersFrom (some (10 * n.getD 0 + d)) t
    | none => n.toList ++ numbersFrom none t

/-- The decimal numbers shown by the last of an error's messages. -/
def tells {ε : Type} [ErrText ε] (e : ε) : List Nat :=
  numbersFrom none ((ErrText.chain (fun _ => []) e).getLastD "").toList

/-- The decimal numbers shown by the first of an error's messages. -/
def firstTells {ε : Type} [ErrText ε] (e : ε) : List Nat :=
  numbersFrom none ((ErrText.chain (fun _ => []) e).headD "").toList

/-- Where a list of `B`s is expected, the message tells how many of its elements precede the bad one. -/
def TellsPosition {E α β R : Type} [ErrText E] [LawfulRead R] (d : Dec R (DecodeListError E) (List α))
    (B : Bytes → β → Prop) : Prop :=
  ∀ r i e r', d r = (.err (.ParseElement i e), r') → ∃ (b c t : Bytes) (n : UInt32) (l : List β),
    avail r = b ++ (c ++ t) ∧ BU32 b n ∧ BSeq B c l ∧ l.length < n.toNat ∧
    firstTells (DecodeListError.ParseElement i e) = [l.length]

/-! ### Causes (C60) -/

/-- The error `w e` shows its cause `e`: its messages end with those of `e`. -/
def Shows {ε ε' : Type} [ErrText ε] [ErrText ε'] (w : ε → ε') : Prop :=
  ∀ io e, ErrText.chain io e <:+ ErrText.chain io (w e)

/-- The error `w e` hides its cause `e`: it has one message, whatever `e` is. -/
def Hides {ε ε' : Type} [ErrText ε'] (w : ε → ε') : Prop :=
  ∃ s, ∀ io e, ErrText.chain io (w e) = [s]

/-- The messages of the errors that hide their cause, as far as an error of the decoder can end with
them.  ("failed reading block type marker byte" is not among them: it is always hidden itself.) -/
def cutTexts : List String :=
  ["failed decoding function index",
   "failed decoding table index",
   "failed decoding type index",
   "failed decoding tag index",
   "failed decoding block type",
   "failed decoding nullability for cast operation",
   "failed decoding heap type",
   "failed reading sub-opcode",
   "failed decoding field index",
   "failed decoding data index",
   "failed decoding element index",
   "failed decoding array fixed length",
   "failed decoding Local index",
   "failed decoding Global index",
   "failed decoding alignment",
   "failed decoding offset",
   "failed decoding Memarg",
   "failed decoding memory index",
   "failed reading 0xFC-prefixed numeric opcode",
   "failed reading Vector opcode",
   "failed reading immediate bytes",
   "failed decoding Function type parameters",
   "failed decoding Function type results",
   "failed reading flag byte",
   "failed reading minimum limit",
   "failed reading maximum limit",
   "failed decoding Mutability",
   "failed decoding count of function locals",
   "failed decoding size of function code",
   "failed decoding bitfield",
   "failed decoding offset expression",
   "failed decoding Element expression",
   "failed decoding table.init expressions",
   "failed reading Export descriptor marker byte",
   "failed decoding module name",
   "failed decoding item name"]

end Wadec.Spec
