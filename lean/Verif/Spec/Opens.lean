import Verif.Spec.Context
import Verif.Spec.Place

/-! Bytes that lead into nested constructs, for C72. -/

namespace Wadec.Spec

/-- `Opens n bs`: read from the start of an expression or of a construct, `bs` leads into `n` constructs, one inside the
other: complete instructions, then the opening of a construct (`block`, `loop`, `if`, `try_table` with what belongs to it,
or an `if` with a complete first branch and `else`), and so on; `bs` ends right behind the last of the `n` openings. -/
inductive Opens : Nat → Bytes → Prop
  | here : Opens 0 []
  | enter {n : Nat} {pre o bs : Bytes} {is : List Instr} {c : Ctx} : BInstrs pre is → Opener c o → Opens n bs →
      Opens (n + 1) (pre ++ (o ++ bs))

/-! Inputs that lead to the start of an expression somewhere in a module; `E` says how the expression starts. -/

/-- The bytes start with a `B`, and the rest has `T`. -/
def Then {α : Type} (B : Bytes → α → Prop) (T : α → Bytes → Prop) (x : Bytes) : Prop :=
  ∃ b v y, x = b ++ y ∧ B b v ∧ T v y

/-- A list that breaks off in an entry: the number of entries, fewer complete ones than that, and `T` from there. -/
def InList {α : Type} (B : Bytes → α → Prop) (T : Bytes → Prop) : Bytes → Prop :=
  Then BU32 fun n => Then (BSeq B) fun l y => l.length < n.toNat ∧ T y

/-- An element segment, from behind its flag, up to one of its expressions: the offset or one of the list. -/
def InElem (E : Bytes → Prop) (flag : UInt32) (x : Bytes) : Prop :=
  (flag = 0 ∧ E x) ∨
  (flag = 2 ∧ Then BTableIdx (fun _ => E) x) ∨
  (flag = 4 ∧ (E x ∨ Then BExpr (fun _ => InList BExpr E) x)) ∨
  ((flag = 5 ∨ flag = 7) ∧ Then BRefType (fun _ => InList BExpr E) x) ∨
  (flag = 6 ∧ Then BTableIdx (fun _ y => E y ∨ Then BExpr (fun _ => Then BRefType fun _ => InList BExpr E) y) x)

/-- An entry of a section up to one of its expressions; the expression of a code entry lies within the size that the
entry starts with. -/
def InEntry (E : Bytes → Prop) : SectionKind → Bytes → Prop
  | .Table, x => ∃ y, x = 0x40 :: 0x00 :: y ∧ Then BTableType (fun _ => E) y
  | .Global, x => Then BGlobalType (fun _ => E) x
  | .Element, x => Then BU32 (InElem E) x
  | .Code, x => Then BU32 (fun size y =>
      Then (BList BLocals) (fun runs z => (localsOf runs).length < 2 ^ 32 ∧ E z) (y.take size.toNat)) x
  | .Data, x => Then BU32 (fun flag y => (flag = 0 ∧ E y) ∨ (flag = 2 ∧ Then BMemIdx (fun _ => E) y)) x
  | _, _ => False

/-- A module up to an expression: preamble, complete sections, the header of a section that may follow them, and within
the size given there the number of entries, complete entries, and an entry up to an expression. -/
def InModule (E : Bytes → Prop) (x : Bytes) : Prop :=
  ∃ secs k size rest, AtSection x secs k size rest ∧ MayFollow secs k ∧
    Then BU32 (fun n => Then (Entries k) fun m y => m < n.toNat ∧ InEntry E k y) (rest.take size.toNat)

end Wadec.Spec
