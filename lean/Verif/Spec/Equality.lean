import Verif.Core.Syntax

/-! Specification of the comparison of decoded values with `==` (C47): values are compared by their
structure, except for floating-point constants, where a NaN differs from everything and the two zeros
are the same. -/

namespace Wadec.Spec

/-- A single precision bit pattern (sign, 8 exponent bits, 23 mantissa bits) that is a NaN. -/
def IsNaN32 (x : UInt32) : Prop := x.toNat / 2 ^ 23 % 2 ^ 8 = 255 ∧ x.toNat % 2 ^ 23 ≠ 0

/-- A double precision bit pattern (sign, 11 exponent bits, 52 mantissa bits) that is a NaN. -/
def IsNaN64 (x : UInt64) : Prop := x.toNat / 2 ^ 52 % 2 ^ 11 = 2047 ∧ x.toNat % 2 ^ 52 ≠ 0

instance (x : UInt32) : Decidable (IsNaN32 x) := by unfold IsNaN32; infer_instance
instance (x : UInt64) : Decidable (IsNaN64 x) := by unfold IsNaN64; infer_instance

/-- Minus zero becomes zero. -/
def unsign32 (x : UInt32) : UInt32 := if x = 0x80000000 then 0 else x
def unsign64 (x : UInt64) : UInt64 := if x = 0x8000000000000000 then 0 else x

mutual
/-- None of the `f32.const` and `f64.const` instructions of the tree is a NaN. -/
def NoNaN : Instr → Prop
  | .F32Const x => ¬ IsNaN32 x
  | .F64Const x => ¬ IsNaN64 x
  | .Block _ is => NoNaNs is
  | .Loop _ is => NoNaNs is
  | .If _ is e => NoNaNs is ∧ NoNaNOpt e
  | .TryTable _ _ is => NoNaNs is
  | _ => True
def NoNaNs : List Instr → Prop
  | [] => True
  | i :: is => NoNaN i ∧ NoNaNs is
def NoNaNOpt : Option (List Instr) → Prop
  | none => True
  | some is => NoNaNs is
end

mutual
/-- The tree with every constant minus zero replaced by zero. -/
def unsign : Instr → Instr
  | .F32Const x => .F32Const (unsign32 x)
  | .F64Const x => .F64Const (unsign64 x)
  | .Block bt is => .Block bt (unsigns is)
  | .Loop bt is => .Loop bt (unsigns is)
  | .If bt is e => .If bt (unsigns is) (unsignOpt e)
  | .TryTable bt cs is => .TryTable bt cs (unsigns is)
  | i => i
def unsigns : List Instr → List Instr
  | [] => []
  | i :: is => unsign i :: unsigns is
def unsignOpt : Option (List Instr) → Option (List Instr)
  | none => none
  | some is => some (unsigns is)
end

/-- The expressions of a module, wherever they occur. -/
def exprsOf (m : Module) : List Expr :=
  m.funcs.map (·.body) ++ m.tables.map (·.init) ++ m.globals.map (·.init) ++
  m.elems.flatMap (fun e => e.init ++ match e.mode with | .Active _ o => [o] | _ => []) ++
  m.datas.flatMap (fun d => match d.mode with | .Active _ o => [o] | _ => [])

/-- No constant of the module is a NaN. -/
def NaNFree (m : Module) : Prop := ∀ e ∈ exprsOf m, NoNaNs e

def unsignElemMode : ElemMode → ElemMode
  | .Active t o => .Active t (unsigns o)
  | x => x

def unsignDataMode : DataMode → DataMode
  | .Active t o => .Active t (unsigns o)
  | x => x

/-- The module with every constant minus zero replaced by zero. -/
def unsignModule (m : Module) : Module :=
  { m with
    funcs := m.funcs.map fun f => { f with body := unsigns f.body }
    tables := m.tables.map fun t => { t with init := unsigns t.init }
    globals := m.globals.map fun g => { g with init := unsigns g.init }
    elems := m.elems.map fun e =>
      { e with init := e.init.map unsigns, mode := unsignElemMode e.mode }
    datas := m.datas.map fun d => { d with mode := unsignDataMode d.mode } }

end Wadec.Spec
