import Verif.Spec.Size
import Verif.Model.Debug

/-! For C78 and C79, the length of what the tool prints. -/

namespace Wadec.Spec

/-- The expanded locals of all functions of a module. -/
def localsModule (m : Module) : Nat := total (fun f => f.locals.length) m.funcs

/-- The texts of floating-point numbers have at most `w` characters. -/
def FloatsWithin (w : Nat) (T : StdText) : Prop := (∀ x, (T.f32 x).length ≤ w) ∧ ∀ x, (T.f64 x).length ≤ w

/-- The name that an error is about, if it is that a name - of a custom section, of an export, or one of the two of an import - is
not UTF-8. -/
def badName : DecodeModuleError → Option (List UInt8)
  | .DecodeCustomSection (.DecodeName (.Utf8 e)) => some e.bytes
  | .DecodeImportSection (.DecodeList (.ParseElement _ (.DecodeModuleName (.Utf8 e)))) => some e.bytes
  | .DecodeImportSection (.DecodeList (.ParseElement _ (.DecodeItemName (.Utf8 e)))) => some e.bytes
  | .DecodeExportSection (.DecodeList (.ParseElement _ (.DecodeName (.Utf8 e)))) => some e.bytes
  | _ => none

/-- The length of that name. -/
def nameLength (e : DecodeModuleError) : Nat := ((badName e).getD []).length

/-- The texts of `io::Error`s: an error and its causes are at least one and at most `k` messages, of `q` characters in all. -/
def IoWithin (k q : Nat) (io : IoError → List String) : Prop :=
  ∀ x, io x ≠ [] ∧ (io x).length ≤ k ∧ total String.length (io x) ≤ q

end Wadec.Spec
