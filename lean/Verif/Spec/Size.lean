import Verif.Core.Syntax
import Verif.Model.Io

/-! Sizes of decoded values (C43, C45): the number of elements of all vectors and of all nodes of
the instruction trees.  Parts of fixed size (a value type, a memory argument, a v128 constant, ...)
belong to the node that contains them. -/

namespace Wadec

/-- Number of bytes a script can still deliver (C44). -/
def Src.volume : List Ev → Nat
  | [] => 0
  | .data bs :: t => bs.length + Src.volume t
  | .fail _ :: t => Src.volume t

end Wadec

namespace Wadec.Spec

/-- Sum of `f` over a list. -/
def total {α : Type} (f : α → Nat) : List α → Nat
  | [] => 0
  | x :: xs => f x + total f xs

mutual
/-- Number of nodes of an instruction: itself, the elements of the vectors it carries, and the
instructions inside it. -/
def nodesInstr : Instr → Nat
  | .Block _ is => 1 + nodesInstrs is
  | .Loop _ is => 1 + nodesInstrs is
  | .If _ is e => 1 + nodesInstrs is + nodesOpt e
  | .TryTable _ cs is => 1 + cs.length + nodesInstrs is
  | .BrTable ls _ => 1 + ls.length
  | .Select (some ts) => 1 + ts.length
  | _ => 1
def nodesInstrs : List Instr → Nat
  | [] => 0
  | i :: is => nodesInstr i + nodesInstrs is
def nodesOpt : Option (List Instr) → Nat
  | none => 0
  | some is => nodesInstrs is
end

mutual
/-- Nesting depth: 0 for an instruction without nested instructions, otherwise one more than the
deepest instruction inside it. -/
def depthInstr : Instr → Nat
  | .Block _ is => 1 + depthInstrs is
  | .Loop _ is => 1 + depthInstrs is
  | .If _ is e => 1 + max (depthInstrs is) (depthOpt e)
  | .TryTable _ _ is => 1 + depthInstrs is
  | _ => 0
/-- Depth of the deepest instruction of a sequence. -/
def depthInstrs : List Instr → Nat
  | [] => 0
  | i :: is => max (depthInstr i) (depthInstrs is)
def depthOpt : Option (List Instr) → Nat
  | none => 0
  | some is => depthInstrs is
end

def nodesExpr (e : Expr) : Nat := 1 + nodesInstrs e

def nodesCompType : CompType → Nat
  | .Struct fs => 1 + fs.length
  | .Array _ => 1
  | .Func ps rs => 1 + ps.length + rs.length

def nodesSubType (t : SubType) : Nat := 1 + t.supertypes.length + nodesCompType t.comptype
def nodesRecType (t : RecType) : Nat := 1 + total nodesSubType t.subtypes
def nodesName (s : Str) : Nat := 1 + s.bytes.length
def nodesImport (i : Import) : Nat := 1 + nodesName i.module_name + nodesName i.item_name
def nodesExport (e : Export) : Nat := 1 + nodesName e.name
def nodesTable (t : Table) : Nat := 1 + nodesExpr t.init
def nodesGlobal (g : Global) : Nat := 1 + nodesExpr g.init

def nodesElemMode : ElemMode → Nat
  | .Active _ e => nodesExpr e
  | _ => 0
def nodesElem (e : Elem) : Nat := 1 + total nodesExpr e.init + nodesElemMode e.mode

def nodesDataMode : DataMode → Nat
  | .Active _ e => nodesExpr e
  | _ => 0
def nodesData (d : Data) : Nat := 1 + d.init.length + nodesDataMode d.mode

def nodesCustom (c : CustomSection) : Nat := nodesName c.name + c.contents.length

/-- A function, its expanded locals not counted. -/
def nodesFunc (f : Func) : Nat := 1 + nodesExpr f.body

def count {α : Type} : Option α → Nat
  | none => 0
  | some _ => 1

/-- Size of a module, the expanded locals of its functions not counted. -/
def nodesModule (m : Module) : Nat :=
  1 + m.version.length + m.parsed_section_kinds.length + m.section_headers.length +
  total nodesCustom m.custom_sections + total nodesRecType m.types + total nodesFunc m.funcs +
  total nodesTable m.tables + m.mems.length + total nodesGlobal m.globals + total nodesElem m.elems +
  count m.data_count + total nodesData m.datas + count m.start + total nodesImport m.imports +
  total nodesExport m.exports + m.tags.length

/-- The deepest instruction anywhere in a module. -/
def deepest (l : List Expr) : Nat := l.foldr (fun e d => max (depthInstrs e) d) 0

def depthModule (m : Module) : Nat :=
  max (deepest (m.funcs.map (·.body)))
    (max (deepest (m.globals.map (·.init)))
      (max (deepest (m.tables.map (·.init)))
        (max (deepest (m.elems.flatMap fun e => e.init ++ match e.mode with
            | .Active _ o => [o] | _ => []))
          (deepest (m.datas.flatMap fun d => match d.mode with | .Active _ o => [o] | _ => [])))))

end Wadec.Spec
