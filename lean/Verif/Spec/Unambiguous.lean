import Verif.Spec.Module

/-! What it means for a grammar to be unambiguous. -/

namespace Wadec.Spec

/-- No encoding is a proper prefix of another, and no encoding denotes two values: whatever
follows, the bytes of an encoding determine where it ends and what it denotes. -/
def Unambiguous {α : Type} (B : Bytes → α → Prop) : Prop :=
  ∀ {b1 b2 t1 t2 : Bytes} {v1 v2 : α}, B b1 v1 → B b2 v2 → b1 ++ t1 = b2 ++ t2 → b1 = b2 ∧ v1 = v2

end Wadec.Spec
