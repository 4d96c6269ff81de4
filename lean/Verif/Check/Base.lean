import Verif.Model.Module
import Verif.Model.Equality

/-! Support for the checks of the model against the project's own tests (Verif/Check). -/

namespace Wadec.Check
open Wadec

/-- `decode_module(bytes).unwrap()` and then the assertions `p`. -/
def onOk (bs : List UInt8) (p : Module → Bool) : Bool :=
  match (decodeModule (Src.ofBytes bs)).1 with
  | .ok m => p m
  | _ => false

/-- `decode_module(bytes).expect_err()` and then the assertions `p`. -/
def onErr (bs : List UInt8) (p : DecodeModuleError → Bool) : Bool :=
  match (decodeModule (Src.ofBytes bs)).1 with
  | .err e => p e
  | _ => false

/-- `assert_eq!`: the derived `PartialEq` of the type. -/
class Same (α : Type) where
  same : α → α → Bool
export Same (same)

instance (priority := low) {α : Type} [DecidableEq α] : Same α := ⟨fun a b => decide (a = b)⟩
instance : Same Module := ⟨Module.eq⟩
instance : Same Instr := ⟨Instr.eq⟩
instance : Same Func := ⟨Func.eq⟩
instance : Same Table := ⟨Table.eq⟩
instance : Same Global := ⟨Global.eq⟩
instance : Same Elem := ⟨Elem.eq⟩
instance : Same Data := ⟨Data.eq⟩
instance : Same DataMode := ⟨DataMode.eq⟩
instance {α : Type} [Same α] : Same (List α) := ⟨vecEq same⟩

/-- `Module::default()`, src/core/module.rs -/
def moduleDefault : Module := Module.default

/-- tests/tests.rs `rectypes` -/
def rectypes (l : List CompType) : List RecType := l.map fun c => ⟨[⟨true, [], c⟩]⟩

instance : Inhabited Func := ⟨⟨⟨0⟩, [], []⟩⟩
instance : Inhabited Data := ⟨⟨[], .Passive⟩⟩

end Wadec.Check
