import Verif.Model.Debug
import Verif.Spec.Equality
import Verif.Spec.Binary

/-! Specification for the `{:#?}` and `{:?}` texts (C62-C64): what is assumed of the texts of the standard library,
and the one thing about a module that its text does not show, the payloads of NaNs. -/

namespace Wadec

/-- The characters of names and numbers. -/
def wordChar (c : Char) : Bool := c.isAlphanum || c == '_' || c == '.' || c == '-' || c == '+'

/-- A name or a number. -/
def isWord (s : String) : Bool := !s.toList.isEmpty && s.toList.all wordChar

/-- The inside of a string literal: no quote without a backslash, no line break, no backslash at the end. -/
def closed : List Char → Bool
  | [] => true
  | '\\' :: c :: cs => c != '\n' && closed cs
  | c :: cs => c != '\\' && c != '"' && c != '\n' && closed cs

mutual
/-- Trees that come from values: names are names, tuples and structs have fields. -/
def Dbg.Ok : Dbg → Prop
  | .word s => isWord s = true
  | .str s => closed s.toList = true
  | .unit => True
  | .tuple n fs => isWord n = true ∧ fs ≠ [] ∧ okItems fs
  | .struct n fs => isWord n = true ∧ fs ≠ [] ∧ okFields fs
  | .list xs => okItems xs
  | .path n d => isWord n = true ∧ d.Ok
def okItems : List Dbg → Prop
  | [] => True
  | f :: fs => f.Ok ∧ okItems fs
def okFields : List (String × Dbg) → Prop
  | [] => True
  | (k, f) :: fs => isWord k = true ∧ f.Ok ∧ okFields fs
end

/-- What is assumed of the texts of the standard library: floating-point numbers are written as words, different
ones differently, except that all NaNs look alike; the texts of I/O errors tell them apart. -/
structure StdText.Ok (T : StdText) : Prop where
  f32_word : ∀ x, isWord (T.f32 x) = true
  f64_word : ∀ x, isWord (T.f64 x) = true
  f32_same : ∀ x y, T.f32 x = T.f32 y ↔ x = y ∨ (Spec.IsNaN32 x ∧ Spec.IsNaN32 y)
  f64_same : ∀ x y, T.f64 x = T.f64 y ↔ x = y ∨ (Spec.IsNaN64 x ∧ Spec.IsNaN64 y)
  io_ok : ∀ e, (T.io e).Ok
  io_inj : ∀ e e', T.io e = T.io e' → e = e'

namespace Spec

/-- All NaNs become the same one. -/
def oneNaN32 (x : UInt32) : UInt32 := if IsNaN32 x then 0x7FC00000 else x
def oneNaN64 (x : UInt64) : UInt64 := if IsNaN64 x then 0x7FF8000000000000 else x

mutual
/-- The tree with every constant that is a NaN replaced by one and the same NaN. -/
def oneNaN : Instr → Instr
  | .F32Const x => .F32Const (oneNaN32 x)
  | .F64Const x => .F64Const (oneNaN64 x)
  | .Block bt is => .Block bt (oneNaNs is)
  | .Loop bt is => .Loop bt (oneNaNs is)
  | .If bt is e => .If bt (oneNaNs is) (oneNaNOpt e)
  | .TryTable bt cs is => .TryTable bt cs (oneNaNs is)
  | i => i
def oneNaNs : List Instr → List Instr
  | [] => []
  | i :: is => oneNaN i :: oneNaNs is
def oneNaNOpt : Option (List Instr) → Option (List Instr)
  | none => none
  | some is => some (oneNaNs is)
end

def oneNaNElemMode : ElemMode → ElemMode
  | .Active t o => .Active t (oneNaNs o)
  | x => x

def oneNaNDataMode : DataMode → DataMode
  | .Active t o => .Active t (oneNaNs o)
  | x => x

/-- The module with every constant that is a NaN replaced by one and the same NaN. -/
def oneNaNModule (m : Module) : Module :=
  { m with
    funcs := m.funcs.map fun f => { f with body := oneNaNs f.body }
    tables := m.tables.map fun t => { t with init := oneNaNs t.init }
    globals := m.globals.map fun g => { g with init := oneNaNs g.init }
    elems := m.elems.map fun e =>
      { e with init := e.init.map oneNaNs, mode := oneNaNElemMode e.mode }
    datas := m.datas.map fun d => { d with mode := oneNaNDataMode d.mode } }

/-- All names of the module are UTF-8, as those of a Rust `String` are. -/
def NamesUtf8 (m : Module) : Prop :=
  (∀ i ∈ m.imports, ValidUtf8 i.module_name.bytes ∧ ValidUtf8 i.item_name.bytes) ∧
  (∀ e ∈ m.exports, ValidUtf8 e.name.bytes) ∧ (∀ c ∈ m.custom_sections, ValidUtf8 c.name.bytes)

end Spec

end Wadec
