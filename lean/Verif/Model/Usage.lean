import Verif.Model.Depth
import Verif.Model.Equality
import Verif.Model.DebugCore

/-! What the derived impls of `Instruction` (src/core/instruction.rs:7: `Debug, Clone, PartialEq`) and the drop glue the compiler adds
do with the call stack: each with room for `d` nested calls of itself on an `Instruction` (C83); `none` if a further one is made. -/

namespace Wadec

/-- `d` nested calls, then the next one on the children: used for the vectors in src/core/instruction.rs:7-520. -/
def eachWithin {α β : Type} (f : α → Option β) : List α → Option (List β)
  | [] => some []
  | a :: as =>
    match f a with
    | none => none
    | some b =>
      match eachWithin f as with
      | none => none
      | some bs => some (b :: bs)

/-- `a && b` in a derived `eq` (src/core/instruction.rs:7): the second is not evaluated if the first is false -/
def andWithin (a : Option Bool) (b : Unit → Option Bool) : Option Bool :=
  match a with
  | some true => b ()
  | o => o

/-! ### Drop -/

mutual
/-- src/core/instruction.rs:8-520: dropping an `Instruction` drops the vectors of instructions in it, and these their elements -/
def dropWithin : Nat → Instr → Option Unit
  | 0, _ => none
  | d + 1, i => match i with
    | .Block _ body => dropVecWithin d body
    | .Loop _ body => dropVecWithin d body
    | .If _ body elseBody =>
      match dropVecWithin d body with
      | none => none
      | some _ => dropOptWithin d elseBody
    | .TryTable _ _ body => dropVecWithin d body
    | _ => some ()
/-- `Vec<Instruction>` in src/core/instruction.rs:7-520 -/
def dropVecWithin : Nat → List Instr → Option Unit
  | _, [] => some ()
  | d, i :: is =>
    match dropWithin d i with
    | none => none
    | some _ => dropVecWithin d is
/-- `Option<Vec<Instruction>>` in src/core/instruction.rs:7-520 -/
def dropOptWithin : Nat → Option (List Instr) → Option Unit
  | _, none => some ()
  | d, some is => dropVecWithin d is
end

/-! ### Clone -/

mutual
/-- src/core/instruction.rs:7 derived `Clone` of `Instruction` -/
def cloneWithin : Nat → Instr → Option Instr
  | 0, _ => none
  | d + 1, i => match i with
    | .Block bt body => (cloneVecWithin d body).map (.Block bt)
    | .Loop bt body => (cloneVecWithin d body).map (.Loop bt)
    | .If bt body elseBody =>
      match cloneVecWithin d body with
      | none => none
      | some body => (cloneOptWithin d elseBody).map (.If bt body)
    | .TryTable bt cs body => (cloneVecWithin d body).map (.TryTable bt cs)
    | i => some i
/-- `Vec<Instruction>` in src/core/instruction.rs:7-520 -/
def cloneVecWithin : Nat → List Instr → Option (List Instr)
  | _, [] => some []
  | d, i :: is =>
    match cloneWithin d i with
    | none => none
    | some i => (cloneVecWithin d is).map (i :: ·)
/-- `Option<Vec<Instruction>>` in src/core/instruction.rs:7-520 -/
def cloneOptWithin : Nat → Option (List Instr) → Option (Option (List Instr))
  | _, none => some none
  | d, some is => (cloneVecWithin d is).map some
end

/-! ### Debug -/

mutual
/-- src/core/instruction.rs:7 derived `Debug` of `Instruction`: `Instr.dbg` of Model/DebugCore -/
def dbgWithin (t : StdText) : Nat → Instr → Option Dbg
  | 0, _ => none
  | d + 1, i => match i with
    | .Block bt body => (dbgVecWithin t d body).map fun l => .tuple "Block" [Debug.dbg t bt, .list l]
    | .Loop bt body => (dbgVecWithin t d body).map fun l => .tuple "Loop" [Debug.dbg t bt, .list l]
    | .If bt body elseBody =>
      match dbgVecWithin t d body with
      | none => none
      | some l => (dbgOptWithin t d elseBody).map fun o => .tuple "If" [Debug.dbg t bt, .list l, o]
    | .TryTable bt cs body =>
      (dbgVecWithin t d body).map fun l => .tuple "TryTable" [Debug.dbg t bt, Debug.dbg t cs, .list l]
    | i => some (i.dbg t)
/-- `Vec<Instruction>` in src/core/instruction.rs:7-520 -/
def dbgVecWithin (t : StdText) : Nat → List Instr → Option (List Dbg)
  | _, [] => some []
  | d, i :: is =>
    match dbgWithin t d i with
    | none => none
    | some x => (dbgVecWithin t d is).map (x :: ·)
/-- `Option<Vec<Instruction>>` in src/core/instruction.rs:7-520 -/
def dbgOptWithin (t : StdText) : Nat → Option (List Instr) → Option Dbg
  | _, none => some (.word "None")
  | d, some is => (dbgVecWithin t d is).map fun l => .tuple "Some" [.list l]
end

/-! ### PartialEq -/

/-- `==` of two vectors (std's `==` of slices, used in src/core/instruction.rs:7-520): no elements are compared if the lengths differ -/
def ofLength {α : Type} (a b : List α) (x : Unit → Option Bool) : Option Bool :=
  if a.length = b.length then x () else some false

mutual
/-- src/core/instruction.rs:7 derived `PartialEq` of `Instruction`: `Instr.eq` of Model/Equality.  The variants are compared first;
those without instructions in them are compared without a further call. -/
def eqWithin : Nat → Instr → Instr → Option Bool
  | 0, _, _ => none
  | d + 1, i, o => match i with
    | .Block bt body => match o with
      | .Block bt' body' => andWithin (some (decide (bt = bt'))) fun _ => ofLength body body' fun _ => eqItemsWithin d body body'
      | _ => some false
    | .Loop bt body => match o with
      | .Loop bt' body' => andWithin (some (decide (bt = bt'))) fun _ => ofLength body body' fun _ => eqItemsWithin d body body'
      | _ => some false
    | .If bt body elseBody => match o with
      | .If bt' body' elseBody' => andWithin (some (decide (bt = bt'))) fun _ =>
          andWithin (ofLength body body' fun _ => eqItemsWithin d body body') fun _ => eqOptWithin d elseBody elseBody'
      | _ => some false
    | .TryTable bt cs body => match o with
      | .TryTable bt' cs' body' => andWithin (some (decide (bt = bt') && decide (cs = cs'))) fun _ => ofLength body body' fun _ => eqItemsWithin d body body'
      | _ => some false
    | i => some (Instr.eq i o)
/-- the elements of a `Vec<Instruction>` in src/core/instruction.rs:7-520, one after the other -/
def eqItemsWithin : Nat → List Instr → List Instr → Option Bool
  | _, [], o => match o with | [] => some true | _ => some false
  | d, i :: is, o => match o with
    | [] => some false
    | j :: js => andWithin (eqWithin d i j) fun _ => eqItemsWithin d is js
/-- `Option<Vec<Instruction>>` in src/core/instruction.rs:7-520 -/
def eqOptWithin : Nat → Option (List Instr) → Option (List Instr) → Option Bool
  | _, none, o => match o with | none => some true | _ => some false
  | d, some is, o => match o with
    | none => some false
    | some js => ofLength is js fun _ => eqItemsWithin d is js
end

/-- `==` of two `Vec<Instruction>` in src/core/instruction.rs:7-520 and of two `Expr`, src/core/mod.rs:67 -/
def eqVecWithin (d : Nat) (is js : List Instr) : Option Bool := ofLength is js fun _ => eqItemsWithin d is js

/-! ### Modules -/

/-- The expressions in a module, src/core/module.rs:14-159: those of functions, tables, globals, element and data segments; nothing else
in a module contains an `Instruction`. -/
def Module.exprs (m : Module) : List Expr :=
  m.funcs.map (·.body) ++ m.tables.map (·.init) ++ m.globals.map (·.init) ++
  m.elems.flatMap (fun e => e.init ++ match e.mode with | .Active _ o => [o] | _ => []) ++
  m.datas.flatMap (fun d => match d.mode with | .Active _ o => [o] | _ => [])

/-- src/core/module.rs:14-159: dropping a `Module` -/
def Module.dropWithin (d : Nat) (m : Module) : Option Unit :=
  (eachWithin (dropVecWithin d) m.exprs).map fun _ => ()

/-- src/core/module.rs:14: printing a `Module` with `{:?}` or `{:#?}`.  (Simplified: the expressions come first; the other fields contain no
`Instruction`.) -/
def Module.dbgWithin (t : StdText) (d : Nat) (m : Module) : Option Dbg :=
  (eachWithin (dbgVecWithin t d) m.exprs).map fun _ => Debug.dbg t m

/-- src/core/mod.rs:70-159: the elements of vectors of types that contain expressions, one after the other until two differ -/
def itemsEqWithin {α : Type} (eq : α → α → Option Bool) : List α → List α → Option Bool
  | [], [] => some true
  | a :: as, b :: bs => andWithin (eq a b) fun _ => itemsEqWithin eq as bs
  | _, _ => some false

/-- `==` of two vectors of types that contain expressions, src/core/module.rs:14-159 -/
def vecEqWithin {α : Type} (eq : α → α → Option Bool) (a b : List α) : Option Bool := ofLength a b fun _ => itemsEqWithin eq a b

/-- src/core/mod.rs:70 derived `PartialEq` of `Func` -/
def Func.eqWithin (d : Nat) (a b : Func) : Option Bool :=
  andWithin (some (decide (a.type = b.type) && decide (a.locals = b.locals))) fun _ => eqVecWithin d a.body b.body

/-- src/core/mod.rs:163 derived `PartialEq` of `Table` -/
def Table.eqWithin (d : Nat) (a b : Table) : Option Bool :=
  andWithin (some (decide (a.type = b.type))) fun _ => eqVecWithin d a.init b.init

/-- src/core/mod.rs:96 derived `PartialEq` of `Global` -/
def Global.eqWithin (d : Nat) (a b : Global) : Option Bool :=
  andWithin (some (decide (a.type = b.type))) fun _ => eqVecWithin d a.init b.init

/-- src/core/mod.rs:147 derived `PartialEq` of `ElemMode` -/
def ElemMode.eqWithin (d : Nat) : ElemMode → ElemMode → Option Bool
  | .Active t o, .Active t' o' => andWithin (some (decide (t = t'))) fun _ => eqVecWithin d o o'
  | a, b => some (ElemMode.eq a b)

/-- src/core/mod.rs:140 derived `PartialEq` of `Elem` -/
def Elem.eqWithin (d : Nat) (a b : Elem) : Option Bool :=
  andWithin (some (decide (a.type = b.type))) fun _ =>
    andWithin (vecEqWithin (eqVecWithin d) a.init b.init) fun _ => ElemMode.eqWithin d a.mode b.mode

/-- src/core/mod.rs:119 derived `PartialEq` of `DataMode` -/
def DataMode.eqWithin (d : Nat) : DataMode → DataMode → Option Bool
  | .Active m o, .Active m' o' => andWithin (some (decide (m = m'))) fun _ => eqVecWithin d o o'
  | a, b => some (DataMode.eq a b)

/-- src/core/mod.rs:113 derived `PartialEq` of `Data` -/
def Data.eqWithin (d : Nat) (a b : Data) : Option Bool :=
  andWithin (some (decide (a.init = b.init))) fun _ => DataMode.eqWithin d a.mode b.mode

/-- src/core/module.rs:14 derived `PartialEq` of `Module` -/
def Module.eqWithin (d : Nat) (a b : Module) : Option Bool :=
  andWithin (some (decide (a.version = b.version) && decide (a.parsed_section_kinds = b.parsed_section_kinds) &&
    decide (a.section_headers = b.section_headers) && decide (a.custom_sections = b.custom_sections) &&
    decide (a.types = b.types))) fun _ =>
  andWithin (vecEqWithin (Func.eqWithin d) a.funcs b.funcs) fun _ =>
  andWithin (vecEqWithin (Table.eqWithin d) a.tables b.tables) fun _ =>
  andWithin (some (decide (a.mems = b.mems))) fun _ =>
  andWithin (vecEqWithin (Global.eqWithin d) a.globals b.globals) fun _ =>
  andWithin (vecEqWithin (Elem.eqWithin d) a.elems b.elems) fun _ =>
  andWithin (some (decide (a.data_count = b.data_count))) fun _ =>
  andWithin (vecEqWithin (Data.eqWithin d) a.datas b.datas) fun _ =>
  some (decide (a.start = b.start) && decide (a.imports = b.imports) && decide (a.exports = b.exports) &&
    decide (a.tags = b.tags))

end Wadec
