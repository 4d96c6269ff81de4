import Verif.Core.Syntax

/-! Instructions in instructions (C83). -/

namespace Wadec.Spec

/-- The instructions of the bodies of an instruction. -/
inductive Within1 : Instr → Instr → Prop
  | block {bt : BlockType} {body : List Instr} {i : Instr} : i ∈ body → Within1 i (.Block bt body)
  | loop {bt : BlockType} {body : List Instr} {i : Instr} : i ∈ body → Within1 i (.Loop bt body)
  | then {bt : BlockType} {body : List Instr} {e : Option (List Instr)} {i : Instr} : i ∈ body → Within1 i (.If bt body e)
  | else {bt : BlockType} {body e : List Instr} {i : Instr} : i ∈ e → Within1 i (.If bt body (some e))
  | tryTable {bt : BlockType} {cs : List Catch} {body : List Instr} {i : Instr} : i ∈ body → Within1 i (.TryTable bt cs body)

/-- There is an instruction `n` levels inside `i`. -/
inductive Reaches : Nat → Instr → Prop
  | here {i : Instr} : Reaches 0 i
  | down {n : Nat} {i j : Instr} : Within1 j i → Reaches n j → Reaches (n + 1) i

/-- The expressions of a module. -/
inductive HasExpr (e : Expr) (m : Module) : Prop
  | func {f : Func} : f ∈ m.funcs → f.body = e → HasExpr e m
  | table {t : Table} : t ∈ m.tables → t.init = e → HasExpr e m
  | global {g : Global} : g ∈ m.globals → g.init = e → HasExpr e m
  | elem {s : Elem} : s ∈ m.elems → e ∈ s.init → HasExpr e m
  | elemOffset {s : Elem} {t : TableIdx} : s ∈ m.elems → s.mode = .Active t e → HasExpr e m
  | dataOffset {s : Data} {x : MemIdx} : s ∈ m.datas → s.mode = .Active x e → HasExpr e m

end Wadec.Spec
