import Verif.Spec.Size
import Verif.Proof.Module

/-! C43, C45: sizes and depths against the length of an encoding. -/

namespace Wadec

open Spec

/-! ### Lengths -/

theorem BU.pos {N v : Nat} {b : Bytes} (h : BU N b v) : 1 ≤ b.length := by
  cases h <;> simp
theorem BS.pos {N : Nat} {v : Int} {b : Bytes} (h : BS N b v) : 1 ≤ b.length := by
  cases h <;> simp
theorem BHeapType.pos {t : HeapType} {b : Bytes} (h : BHeapType b t) : 1 ≤ b.length := by
  cases h with
  | abs h => cases h <;> simp
  | idx h => exact BS.pos h
theorem BRefType.pos {t : RefType} {b : Bytes} (h : BRefType b t) : 1 ≤ b.length := by
  cases h with
  | ref => simp
  | refNull => simp
  | abs h => cases h <;> simp
theorem BValType.pos {t : ValType} {b : Bytes} (h : BValType b t) : 1 ≤ b.length := by
  cases h with
  | ref h => exact BRefType.pos h
  | _ => simp
theorem BBlockType.pos {t : BlockType} {b : Bytes} (h : BBlockType b t) : 1 ≤ b.length := by
  cases h with
  | empty => simp
  | val h => exact BValType.pos h
  | idx h => exact BS.pos h
theorem BOpcode.pos {op : Opcode} {b : Bytes} (h : BOpcode b op) : 1 ≤ b.length := by
  cases h <;> simp
theorem BStorageType.pos {t : StorageType} {b : Bytes} (h : BStorageType b t) : 1 ≤ b.length := by
  cases h with
  | val h => exact BValType.pos h
  | _ => simp
theorem BFieldType.pos {t : FieldType} {b : Bytes} (h : BFieldType b t) : 2 ≤ b.length := by
  cases h with
  | mk h1 h2 =>
    have := BStorageType.pos h1
    cases h2 <;> simp <;> omega
theorem BLimits.pos {t : Limits} {b : Bytes} (h : BLimits b t) : 2 ≤ b.length := by
  cases h with
  | i32Min h => have := BU.pos h; simp; omega
  | i64Min h => have := BU.pos h; simp; omega
  | i32MinMax h h2 => have := BU.pos h; simp; omega
  | i64MinMax h h2 => have := BU.pos h; simp; omega
theorem BTableType.pos {t : TableType} {b : Bytes} (h : BTableType b t) : 3 ≤ b.length := by
  cases h with
  | mk h1 h2 => have := BRefType.pos h1; have := BLimits.pos h2; simp; omega
theorem BTagType.pos {t : TagType} {b : Bytes} (h : BTagType b t) : 2 ≤ b.length := by
  cases h with
  | mk h1 => have := BU.pos h1; simp; omega
theorem BCatch.pos {t : Catch} {b : Bytes} (h : BCatch b t) : 1 ≤ b.length := by
  cases h <;> simp
theorem BExternType.pos {t : ExternType} {b : Bytes} (h : BExternType b t) : 2 ≤ b.length := by
  cases h with
  | func h => have := BU.pos h; simp; omega
  | table h => have := BTableType.pos h; simp; omega
  | mem h => have := BLimits.pos h; simp; omega
  | global h => cases h with | mk h1 h2 => have := BValType.pos h1; simp; omega
  | tag h => have := BTagType.pos h; simp; omega
theorem BExternIdx.pos {t : ExternIdx} {b : Bytes} (h : BExternIdx b t) : 2 ≤ b.length := by
  cases h with
  | func h => have := BU.pos h; simp; omega
  | table h => have := BU.pos h; simp; omega
  | mem h => have := BU.pos h; simp; omega
  | global h => have := BU.pos h; simp; omega
  | tag h => have := BU.pos h; simp; omega

/-! ### Lists -/

theorem BSeq.total {α : Type} {B : Bytes → α → Prop} {f : α → Nat} {k : Nat} {b : Bytes} {l : List α}
    (hB : ∀ b x, B b x → f x ≤ k * b.length) (h : BSeq B b l) : Spec.total f l ≤ k * b.length := by
  induction h with
  | nil => simp [Spec.total]
  | cons h _ ih =>
    have := hB _ _ h
    simp only [Spec.total, List.length_append, Nat.mul_add]
    omega

theorem BList.total {α : Type} {B : Bytes → α → Prop} {f : α → Nat} {k : Nat} {b : Bytes} {l : List α}
    (hB : ∀ b x, B b x → f x ≤ k * b.length) (h : BList B b l) :
    Spec.total f l + k ≤ k * b.length := by
  cases h with
  | mk h1 h2 =>
    have h3 := BU.pos h1
    have h4 := BSeq.total hB h2
    rw [List.length_append, Nat.mul_add]
    have := Nat.mul_le_mul_left k h3
    omega

theorem BList.total1 {α : Type} {B : Bytes → α → Prop} {b : Bytes} {l : List α} (f : α → Nat)
    (hB : ∀ b x, B b x → f x ≤ b.length) (h : BList B b l) : Spec.total f l + 1 ≤ b.length := by
  have := BList.total (k := 1) (f := f) (fun b x hx => by have := hB b x hx; omega) h
  omega

theorem total_one {α : Type} (l : List α) : Spec.total (fun _ => 1) l = l.length := by
  induction l with
  | nil => rfl
  | cons x xs ih => simp [Spec.total, ih]; omega

theorem BList.len {α : Type} {B : Bytes → α → Prop} {b : Bytes} {l : List α}
    (hB : ∀ b x, B b x → 1 ≤ b.length) (h : BList B b l) : l.length + 1 ≤ b.length := by
  have := BList.total (k := 1) (f := fun _ => 1) (fun b x hx => by have := hB b x hx; omega) h
  rw [total_one] at this
  omega

theorem BByteVec.len {b v : Bytes} (h : BByteVec b v) : v.length + 1 ≤ b.length :=
  BList.len (fun b x h => by cases h; simp) h

theorem BName.len {b : Bytes} {s : Str} (h : BName b s) : s.bytes.length + 1 ≤ b.length :=
  BByteVec.len h.1

theorem total_append {α : Type} (f : α → Nat) (l1 l2 : List α) :
    Spec.total f (l1 ++ l2) = Spec.total f l1 + Spec.total f l2 := by
  induction l1 with
  | nil => simp [Spec.total]
  | cons x xs ih => simp [Spec.total, ih]; omega

theorem total_flatMap {α β : Type} (f : α → Nat) (g : β → List α) (l : List β) :
    Spec.total f (l.flatMap g) = Spec.total (fun x => Spec.total f (g x)) l := by
  induction l with
  | nil => rfl
  | cons x xs ih => simp [Spec.total, total_append, ih]

theorem total_le {α : Type} {f g : α → Nat} {l : List α} (h : ∀ x ∈ l, f x ≤ g x) :
    Spec.total f l ≤ Spec.total g l := by
  induction l with
  | nil => simp [Spec.total]
  | cons x xs ih =>
    have := h x (by simp)
    have := ih fun y hy => h y (by simp [hy])
    simp only [Spec.total]
    omega

/-! ### Instructions -/

theorem nodes_leaf {op : Opcode} {imms : Bytes} {i : Instr} (h : Leaf op imms i) :
    nodesInstr i ≤ 1 + imms.length := by
  cases h with
  | brTable h1 h2 =>
    have := BList.len (fun _ _ h => BU.pos h) h1
    simp [nodesInstr]; omega
  | selectT h =>
    have := BList.len (fun _ _ h => BValType.pos h) h
    simp [nodesInstr]; omega
  | _ => simp [nodesInstr]

mutual
theorem nodes_instr : ∀ {i : Instr} {b : Bytes}, BInstr b i → nodesInstr i ≤ b.length
  | _, _, .leaf h0 h => by
    have := nodes_leaf h
    have := BOpcode.pos h0
    simp; omega
  | _, _, .block h0 h => by
    have := nodes_instrs h
    simp [nodesInstr]; omega
  | _, _, .loop h0 h => by
    have := nodes_instrs h
    simp [nodesInstr]; omega
  | _, _, .if h0 h => by
    have := nodes_instrs h
    simp [nodesInstr, nodesOpt]; omega
  | _, _, .ifElse h0 h1 h2 => by
    have := nodes_instrs h1
    have := nodes_instrs h2
    simp [nodesInstr, nodesOpt]; omega
  | _, _, .tryTable h0 h1 h => by
    have := nodes_instrs h
    have := BList.len (fun _ _ h => BCatch.pos h) h1
    simp [nodesInstr]; omega
theorem nodes_instrs : ∀ {is : List Instr} {b : Bytes}, BInstrs b is → nodesInstrs is ≤ b.length
  | _, _, .nil => by simp [nodesInstrs]
  | _, _, .cons h hs => by
    have := nodes_instr h
    have := nodes_instrs hs
    simp [nodesInstrs]; omega
end

theorem nodes_expr {e : Expr} {b : Bytes} (h : BExpr b e) : nodesExpr e ≤ b.length := by
  cases h with
  | mk h =>
    have := nodes_instrs h
    simp [nodesExpr]; omega

/-! Each level of nesting takes three bytes: the opcode, a block type and the `end`. -/

theorem depth_leaf {op : Opcode} {imms : Bytes} {i : Instr} (h : Leaf op imms i) :
    depthInstr i = 0 := by
  cases h <;> simp [depthInstr]

mutual
theorem depth_instr : ∀ {i : Instr} {b : Bytes}, BInstr b i → 3 * depthInstr i ≤ b.length
  | _, _, .leaf h0 h => by
    rw [depth_leaf h]; simp
  | _, _, .block h0 h => by
    have := depth_instrs h
    have := BBlockType.pos h0
    simp [depthInstr]; omega
  | _, _, .loop h0 h => by
    have := depth_instrs h
    have := BBlockType.pos h0
    simp [depthInstr]; omega
  | _, _, .if h0 h => by
    have := depth_instrs h
    have := BBlockType.pos h0
    simp [depthInstr, depthOpt]; omega
  | _, _, .ifElse h0 h1 h2 => by
    have := depth_instrs h1
    have := depth_instrs h2
    have := BBlockType.pos h0
    simp [depthInstr, depthOpt]; omega
  | _, _, .tryTable h0 h1 h => by
    have := depth_instrs h
    have := BBlockType.pos h0
    simp [depthInstr]; omega
theorem depth_instrs : ∀ {is : List Instr} {b : Bytes}, BInstrs b is → 3 * depthInstrs is ≤ b.length
  | _, _, .nil => by simp [depthInstrs]
  | _, _, .cons h hs => by
    have := depth_instr h
    have := depth_instrs hs
    simp [depthInstrs]; omega
end

theorem depth_expr {e : Expr} {b : Bytes} (h : BExpr b e) : 3 * depthInstrs e < b.length := by
  cases h with
  | mk h =>
    have := depth_instrs h
    simp; omega

/-! ### Entries -/

theorem nodes_compType {t : CompType} {b : Bytes} (h : BCompType b t) :
    nodesCompType t ≤ b.length ∧ 2 ≤ b.length := by
  cases h with
  | array h => have := BFieldType.pos h; simp [nodesCompType]; omega
  | struct h =>
    have := BList.len (fun _ _ h => by have := BFieldType.pos h; omega) h
    simp [nodesCompType]; omega
  | func h1 h2 =>
    have := BList.len (fun _ _ h => BValType.pos h) h1
    have := BList.len (fun _ _ h => BValType.pos h) h2
    simp [nodesCompType]; omega

theorem nodes_subType {t : SubType} {b : Bytes} (h : BSubType b t) :
    nodesSubType t ≤ 1 + b.length ∧ 2 ≤ b.length := by
  cases h with
  | final h1 h2 =>
    have := BList.len (fun _ _ h => BU.pos h) h1
    have := nodes_compType h2
    simp [nodesSubType]; omega
  | «open» h1 h2 =>
    have := BList.len (fun _ _ h => BU.pos h) h1
    have := nodes_compType h2
    simp [nodesSubType]; omega
  | comp h =>
    have := nodes_compType h
    simp [nodesSubType]; omega

theorem nodes_recType {t : RecType} {b : Bytes} (h : BRecType b t) : nodesRecType t ≤ 2 * b.length := by
  cases h with
  | group h =>
    have := BList.total (k := 2) (f := nodesSubType)
      (fun _ _ h => by have := nodes_subType h; omega) h
    simp [nodesRecType]; omega
  | single h =>
    have := nodes_subType h
    simp [nodesRecType, Spec.total]; omega

theorem nodes_import {i : Import} {b : Bytes} (h : BImport b i) : nodesImport i ≤ b.length := by
  cases h with
  | mk h1 h2 h3 =>
    have := BName.len h1
    have := BName.len h2
    have := BExternType.pos h3
    simp [nodesImport, nodesName]; omega

theorem nodes_export {i : Export} {b : Bytes} (h : BExport b i) : nodesExport i ≤ b.length := by
  cases h with
  | mk h1 h2 =>
    have := BName.len h1
    have := BExternIdx.pos h2
    simp [nodesExport, nodesName]; omega

theorem nodes_table {t : Table} {b : Bytes} (h : BTable b t) : nodesTable t ≤ b.length := by
  cases h with
  | type h =>
    have := BTableType.pos h
    simp [nodesTable, nodesExpr, nodesInstrs, nodesInstr]; omega
  | init h1 h2 =>
    have := nodes_expr h2
    simp [nodesTable]; omega

theorem nodes_global {g : Global} {b : Bytes} (h : BGlobal b g) : nodesGlobal g ≤ b.length := by
  cases h with
  | mk h1 h2 =>
    have := nodes_expr h2
    cases h1 with
    | mk h1 _ =>
      have := BValType.pos h1
      simp [nodesGlobal]; omega

theorem nodes_refFuncs (ys : List FuncIdx) : Spec.total nodesExpr (refFuncs ys) = 2 * ys.length := by
  induction ys with
  | nil => rfl
  | cons y ys ih =>
    simp only [refFuncs, List.map_cons, Spec.total] at ih ⊢
    rw [ih]
    simp [nodesExpr, nodesInstrs, nodesInstr]; omega

theorem nodes_elem {e : Elem} {b : Bytes} (h : BElem b e) : nodesElem e ≤ 2 * b.length := by
  cases h with
  | active0 h0 h1 h2 =>
    have := BU.pos h0
    have := nodes_expr h1
    have := BList.len (fun _ _ h => BU.pos h) h2
    simp [nodesElem, nodes_refFuncs, nodesElemMode]; omega
  | passive h0 h1 =>
    have := BList.len (fun _ _ h => BU.pos h) h1
    simp [nodesElem, nodes_refFuncs, nodesElemMode]; omega
  | active h0 h1 h2 h3 =>
    have := nodes_expr h2
    have := BList.len (fun _ _ h => BU.pos h) h3
    simp [nodesElem, nodes_refFuncs, nodesElemMode]; omega
  | declare h0 h1 =>
    have := BList.len (fun _ _ h => BU.pos h) h1
    simp [nodesElem, nodes_refFuncs, nodesElemMode]; omega
  | active0Expr h0 h1 h2 =>
    have := BU.pos h0
    have := nodes_expr h1
    have := BList.total1 nodesExpr (fun _ _ h => nodes_expr h) h2
    simp [nodesElem, nodesElemMode]; omega
  | passiveExpr h0 h1 h2 =>
    have := BList.total1 nodesExpr (fun _ _ h => nodes_expr h) h2
    simp [nodesElem, nodesElemMode]; omega
  | activeExpr h0 h1 h2 h3 h4 =>
    have := nodes_expr h2
    have := BList.total1 nodesExpr (fun _ _ h => nodes_expr h) h4
    simp [nodesElem, nodesElemMode]; omega
  | declareExpr h0 h1 h2 =>
    have := BList.total1 nodesExpr (fun _ _ h => nodes_expr h) h2
    simp [nodesElem, nodesElemMode]; omega

theorem nodes_data {d : Data} {b : Bytes} (h : BData b d) : nodesData d ≤ b.length := by
  cases h with
  | active0 h0 h1 h2 =>
    have := BU.pos h0
    have := nodes_expr h1
    have := BByteVec.len h2
    simp [nodesData, nodesDataMode]; omega
  | passive h0 h1 =>
    have := BU.pos h0
    have := BByteVec.len h1
    simp [nodesData, nodesDataMode]; omega
  | active h0 h1 h2 h3 =>
    have := nodes_expr h2
    have := BByteVec.len h3
    simp [nodesData, nodesDataMode]; omega

/-- A code entry, without its locals. -/
def nodesCode (c : CodeEntry) : Nat := 1 + nodesExpr c.body

theorem nodes_code {c : CodeEntry} {b : Bytes} (h : BCode b c) : nodesCode c ≤ b.length := by
  cases h with
  | mk h0 h =>
    have := BU.pos h0
    cases h with
    | mk h1 h2 =>
      have := nodes_expr h2
      simp [nodesCode]; omega

/-! ### Modules -/

def nodesSection : Section → Nat
  | .custom c => nodesCustom c
  | .type l => total nodesRecType l
  | .import l => total nodesImport l
  | .function _ => 0
  | .table l => total nodesTable l
  | .memory l => l.length
  | .tag l => l.length
  | .global l => total nodesGlobal l
  | .export l => total nodesExport l
  | .start _ => 1
  | .element l => total nodesElem l
  | .dataCount _ => 1
  | .code l => total nodesCode l
  | .data l => total nodesData l

theorem nodes_contents {s : Section} {b : Bytes} (h : BContents b s) : nodesSection s ≤ 2 * b.length := by
  cases h with
  | custom h =>
    cases h with
    | mk h => have := BName.len h; simp [nodesSection, nodesCustom, nodesName]; omega
  | type h => have := BList.total (k := 2) (f := nodesRecType) (fun _ _ h => nodes_recType h) h; simp [nodesSection]; omega
  | «import» h =>
    have := BList.total1 nodesImport (fun _ _ h => nodes_import h) h
    simp [nodesSection]; omega
  | function h => simp [nodesSection]
  | table h =>
    have := BList.total1 nodesTable (fun _ _ h => nodes_table h) h
    simp [nodesSection]; omega
  | memory h =>
    have := BList.len (fun _ _ h => by have := BLimits.pos h; omega) h
    simp [nodesSection]; omega
  | tag h =>
    have := BList.len (fun _ _ h => by have := BTagType.pos h; omega) h
    simp [nodesSection]; omega
  | global h =>
    have := BList.total1 nodesGlobal (fun _ _ h => nodes_global h) h
    simp [nodesSection]; omega
  | «export» h =>
    have := BList.total1 nodesExport (fun _ _ h => nodes_export h) h
    simp [nodesSection]; omega
  | start h => have := BU.pos h; simp [nodesSection]; omega
  | element h => have := BList.total (k := 2) (f := nodesElem) (fun _ _ h => nodes_elem h) h; simp [nodesSection]; omega
  | dataCount h => have := BU.pos h; simp [nodesSection]; omega
  | code h =>
    have := BList.total1 nodesCode (fun _ _ h => nodes_code h) h
    simp [nodesSection]; omega
  | data h =>
    have := BList.total1 nodesData (fun _ _ h => nodes_data h) h
    simp [nodesSection]; omega

theorem nodes_sections {secs : List (UInt32 × Section)} {b : Bytes} (h : BSeq BSection b secs) :
    Spec.total (fun s => 2 + nodesSection s.2) secs ≤ 2 * b.length := by
  refine BSeq.total (fun b s h => ?_) h
  cases h with
  | mk h1 h2 h3 =>
    have := BU.pos h1
    have := nodes_contents h3
    simp; omega

theorem total_head {α : Type} (f : α → Option β) (l : List α) :
    count (l.filterMap f).head? ≤ Spec.total (fun x => count (f x)) l := by
  induction l with
  | nil => simp [count, Spec.total]
  | cons x xs ih =>
    rw [List.filterMap_cons]
    cases h : f x with
    | none => simp only [Spec.total, h, count] at ih ⊢; omega
    | some y => simp [Spec.total, h, count]

theorem total_filterMap {α : Type} (g : β → Nat) (f : α → Option β) (l : List α) :
    Spec.total g (l.filterMap f) = Spec.total (fun x => match f x with | none => 0 | some y => g y) l := by
  induction l with
  | nil => simp [Spec.total]
  | cons x xs ih =>
    rw [List.filterMap_cons]
    cases h : f x with
    | none => simp only [Spec.total, h, ih]; omega
    | some y => simp [Spec.total, h, ih]

theorem total_zipWith (xs : List TypeIdx) (cs : List CodeEntry) :
    Spec.total nodesFunc (List.zipWith mkFunc xs cs) ≤ Spec.total nodesCode cs := by
  induction cs generalizing xs with
  | nil => simp [Spec.total]
  | cons c cs ih =>
    cases xs with
    | nil => simp [Spec.total]
    | cons x xs =>
      have := ih xs
      simp only [List.zipWith_cons_cons, Spec.total]
      have : nodesFunc (mkFunc x c) = nodesCode c := rfl
      omega

theorem total_add {α : Type} (f g : α → Nat) (l : List α) :
    Spec.total (fun x => f x + g x) l = Spec.total f l + Spec.total g l := by
  induction l with
  | nil => rfl
  | cons x xs ih => simp only [Spec.total, ih]; omega

theorem total_map {α β : Type} (f : β → Nat) (g : α → β) (l : List α) :
    Spec.total f (l.map g) = Spec.total (fun x => f (g x)) l := by
  induction l with
  | nil => rfl
  | cons x xs ih => simp only [List.map_cons, Spec.total, ih]

theorem nodes_parts (ss : List Section) :
    Spec.total nodesCustom (customsOf ss) + Spec.total nodesRecType (typesOf ss) +
      Spec.total nodesCode (codesOf ss) +
      Spec.total nodesTable (tablesOf ss) + Spec.total (fun _ => 1) (memsOf ss) +
      Spec.total nodesGlobal (globalsOf ss) + Spec.total nodesElem (elemsOf ss) +
      Spec.total (fun x : Section => count (match x with | .dataCount n => some n | _ => none)) ss +
      Spec.total nodesData (datasOf ss) +
      Spec.total (fun x : Section => count (match x with | .start x => some x | _ => none)) ss +
      Spec.total nodesImport (importsOf ss) +
      Spec.total nodesExport (exportsOf ss) + Spec.total (fun _ => 1) (tagsOf ss) =
      Spec.total nodesSection ss := by
  simp only [customsOf, typesOf, codesOf, tablesOf, memsOf, globalsOf, elemsOf, datasOf, importsOf,
    exportsOf, tagsOf]
  induction ss with
  | nil => rfl
  | cons s ss ih =>
    cases s <;>
      simp only [List.flatMap_cons, List.filterMap_cons, Spec.total, total_append, nodesSection, count,
        List.nil_append, total_one] at ih ⊢ <;> omega

theorem nodes_assemble (ss : List Section) :
    Spec.total nodesCustom (customsOf ss) + Spec.total nodesRecType (typesOf ss) +
      Spec.total nodesFunc (List.zipWith mkFunc (typeIdxsOf ss) (codesOf ss)) +
      Spec.total nodesTable (tablesOf ss) + (memsOf ss).length + Spec.total nodesGlobal (globalsOf ss) +
      Spec.total nodesElem (elemsOf ss) + count (dataCountOf ss) + Spec.total nodesData (datasOf ss) +
      count (startOf ss) + Spec.total nodesImport (importsOf ss) +
      Spec.total nodesExport (exportsOf ss) + (tagsOf ss).length ≤ Spec.total nodesSection ss := by
  have h1 := total_zipWith (typeIdxsOf ss) (codesOf ss)
  have h2 : count (dataCountOf ss) ≤
      Spec.total (fun x : Section => count (match x with | .dataCount n => some n | _ => none)) ss :=
    total_head _ ss
  have h3 : count (startOf ss) ≤
      Spec.total (fun x : Section => count (match x with | .start x => some x | _ => none)) ss :=
    total_head _ ss
  rw [← total_one (memsOf ss), ← total_one (tagsOf ss)]
  refine Nat.le_trans ?_ (Nat.le_of_eq (nodes_parts ss))
  omega

theorem nodes_module {b : Bytes} {m : Module} (h : BModule b m) : nodesModule m ≤ 2 * b.length := by
  cases h with
  | @mk bs secs h hw =>
    have h1 := nodes_sections h
    have h2 := nodes_assemble (secs.map Prod.snd)
    rw [total_add] at h1
    rw [total_map] at h2
    have h3 : Spec.total (fun _ : UInt32 × Section => 2) secs = 2 * secs.length := by
      clear h1 h2 h hw
      induction secs with
      | nil => rfl
      | cons x xs ih => simp only [Spec.total, ih, List.length_cons]; omega
    have h4 : (nonCustom (secs.map Prod.snd)).length ≤ secs.length := by
      refine Nat.le_trans (List.length_filter_le _ _) ?_
      simp
    have h5 : preamble.length = 8 := rfl
    simp only [nodesModule, assemble, List.length_append, List.length_map, List.length_cons,
      List.length_nil, h5] at h2 ⊢
    omega

/-! ### Depth -/

theorem BList.memLe {α : Type} {B : Bytes → α → Prop} {b : Bytes} {l : List α} (h : BList B b l) :
    ∀ x ∈ l, ∃ c, B c x ∧ c.length ≤ b.length := by
  cases h with
  | mk h0 h =>
    clear h0
    induction h with
    | nil => simp
    | cons h _ ih =>
      intro x hx
      rcases List.mem_cons.1 hx with rfl | hx
      · exact ⟨_, h, by simp; omega⟩
      · obtain ⟨c, h1, h2⟩ := ih x hx
        exact ⟨c, h1, by simp at h2 ⊢; omega⟩

theorem deepest_le {D : Nat} {l : List Expr} (h : ∀ e ∈ l, depthInstrs e ≤ D) : deepest l ≤ D := by
  induction l with
  | nil => exact Nat.zero_le _
  | cons x xs ih =>
    have h1 := h x (by simp)
    have h2 := ih fun y hy => h y (by simp [hy])
    exact Nat.max_le.2 ⟨h1, h2⟩

/-- The expressions of a section. -/
def exprsSection : Section → List Expr
  | .table l => l.map (·.init)
  | .global l => l.map (·.init)
  | .element l => l.flatMap fun e => e.init ++ match e.mode with | .Active _ o => [o] | _ => []
  | .code l => l.map (·.body)
  | .data l => l.flatMap fun d => match d.mode with | .Active _ o => [o] | _ => []
  | _ => []

theorem depth_refFunc {ys : List FuncIdx} {x : Expr} (h : x ∈ refFuncs ys) : depthInstrs x = 0 := by
  simp only [refFuncs, List.mem_map] at h
  obtain ⟨y, _, rfl⟩ := h
  simp [depthInstrs, depthInstr]

theorem depth_list {es : List Expr} {b : Bytes} (h : BList BExpr b es) {x : Expr} (hx : x ∈ es) :
    3 * depthInstrs x ≤ b.length := by
  obtain ⟨c, h1, h2⟩ := BList.memLe h x hx
  have := depth_expr h1
  omega

theorem depth_elem {e : Elem} {b : Bytes} (h : BElem b e) :
    ∀ x ∈ e.init ++ (match e.mode with | .Active _ o => [o] | _ => []), 3 * depthInstrs x ≤ b.length := by
  intro x hx
  cases h with
  | active0 h0 h1 h2 =>
    simp only [List.mem_append, List.mem_singleton] at hx
    rcases hx with hx | rfl
    · rw [depth_refFunc hx]; simp
    · have := depth_expr h1; simp; omega
  | passive h0 h1 =>
    simp only [List.append_nil] at hx
    rw [depth_refFunc hx]; simp
  | active h0 h1 h2 h3 =>
    simp only [List.mem_append, List.mem_singleton] at hx
    rcases hx with hx | rfl
    · rw [depth_refFunc hx]; simp
    · have := depth_expr h2; simp; omega
  | declare h0 h1 =>
    simp only [List.append_nil] at hx
    rw [depth_refFunc hx]; simp
  | active0Expr h0 h1 h2 =>
    simp only [List.mem_append, List.mem_singleton] at hx
    rcases hx with hx | rfl
    · have := depth_list h2 hx; simp; omega
    · have := depth_expr h1; simp; omega
  | passiveExpr h0 h1 h2 =>
    simp only [List.append_nil] at hx
    have := depth_list h2 hx; simp; omega
  | activeExpr h0 h1 h2 h3 h4 =>
    simp only [List.mem_append, List.mem_singleton] at hx
    rcases hx with hx | rfl
    · have := depth_list h4 hx; simp; omega
    · have := depth_expr h2; simp; omega
  | declareExpr h0 h1 h2 =>
    simp only [List.append_nil] at hx
    have := depth_list h2 hx; simp; omega

theorem depth_contents {s : Section} {b : Bytes} (h : BContents b s) :
    ∀ e ∈ exprsSection s, 3 * depthInstrs e ≤ b.length := by
  intro e he
  cases h with
  | table h =>
    obtain ⟨t, ht, rfl⟩ := List.mem_map.1 he
    obtain ⟨c, h1, h2⟩ := BList.memLe h t ht
    cases h1 with
    | type => simp [depthInstrs, depthInstr]
    | init _ h1 => have := depth_expr h1; simp at h2 ⊢; omega
  | global h =>
    obtain ⟨t, ht, rfl⟩ := List.mem_map.1 he
    obtain ⟨c, h1, h2⟩ := BList.memLe h t ht
    cases h1 with
    | mk _ h1 => have := depth_expr h1; simp at h2 ⊢; omega
  | code h =>
    obtain ⟨t, ht, rfl⟩ := List.mem_map.1 he
    obtain ⟨c, h1, h2⟩ := BList.memLe h t ht
    cases h1 with
    | mk _ h1 => cases h1 with | mk _ h1 _ => have := depth_expr h1; simp at h2 ⊢; omega
  | element h =>
    obtain ⟨t, ht, hx⟩ := List.mem_flatMap.1 he
    obtain ⟨c, h1, h2⟩ := BList.memLe h t ht
    have := depth_elem h1 _ hx
    omega
  | data h =>
    obtain ⟨t, ht, hx⟩ := List.mem_flatMap.1 he
    obtain ⟨c, h1, h2⟩ := BList.memLe h t ht
    cases h1 with
    | active0 _ h1 _ =>
      cases List.mem_singleton.1 hx
      have := depth_expr h1; simp at h2 ⊢; omega
    | passive => cases hx
    | active _ _ h1 _ =>
      cases List.mem_singleton.1 hx
      have := depth_expr h1; simp at h2 ⊢; omega
  | _ => cases he

theorem depth_sections {secs : List (UInt32 × Section)} {b : Bytes} (h : BSeq BSection b secs) :
    ∀ s ∈ secs.map Prod.snd, ∀ e ∈ exprsSection s, 3 * depthInstrs e ≤ b.length := by
  induction h with
  | nil => simp
  | cons h _ ih =>
    intro s hs
    rw [List.map_cons] at hs
    rcases List.mem_cons.1 hs with rfl | hs
    · intro e he
      cases h with
      | mk h1 h2 h3 =>
        have := depth_contents h3 e he
        simp; omega
    · intro e he
      have := ih s hs e he
      simp; omega

theorem zipWith_body (xs : List TypeIdx) (cs : List CodeEntry) :
    ∀ f ∈ List.zipWith mkFunc xs cs, ∃ c ∈ cs, f.body = c.body := by
  induction cs generalizing xs with
  | nil => simp
  | cons c cs ih =>
    cases xs with
    | nil => simp
    | cons x xs =>
      intro f hf
      rw [List.zipWith_cons_cons] at hf
      rcases List.mem_cons.1 hf with rfl | hf
      · exact ⟨c, by simp, rfl⟩
      · obtain ⟨d, h1, h2⟩ := ih xs f hf
        exact ⟨d, by simp [h1], h2⟩

theorem depth_module {b : Bytes} {m : Module} (h : BModule b m) : 3 * depthModule m ≤ b.length := by
  cases h with
  | @mk bs secs h hw =>
    have h0 := depth_sections h
    have key : depthModule (assemble secs) ≤ bs.length / 3 := by
      have h1 : ∀ s ∈ secs.map Prod.snd, ∀ e ∈ exprsSection s, depthInstrs e ≤ bs.length / 3 := by
        intro s hs e he
        have := h0 s hs e he
        omega
      simp only [depthModule, assemble]
      generalize secs.map Prod.snd = ss at h1
      refine Nat.max_le.2 ⟨deepest_le fun e he => ?_, Nat.max_le.2 ⟨deepest_le fun e he => ?_,
        Nat.max_le.2 ⟨deepest_le fun e he => ?_, Nat.max_le.2 ⟨deepest_le fun e he => ?_,
          deepest_le fun e he => ?_⟩⟩⟩⟩
      · obtain ⟨f, hf, rfl⟩ := List.mem_map.1 he
        obtain ⟨c, hc, hb⟩ := zipWith_body _ _ f hf
        rw [hb]
        obtain ⟨s, hs, hx⟩ := List.mem_flatMap.1 hc
        cases s with
        | code l => exact h1 _ hs _ (List.mem_map.2 ⟨c, hx, rfl⟩)
        | _ => cases hx
      · obtain ⟨f, hf, rfl⟩ := List.mem_map.1 he
        obtain ⟨s, hs, hx⟩ := List.mem_flatMap.1 hf
        cases s with
        | global l => exact h1 _ hs _ (List.mem_map.2 ⟨f, hx, rfl⟩)
        | _ => cases hx
      · obtain ⟨f, hf, rfl⟩ := List.mem_map.1 he
        obtain ⟨s, hs, hx⟩ := List.mem_flatMap.1 hf
        cases s with
        | table l => exact h1 _ hs _ (List.mem_map.2 ⟨f, hx, rfl⟩)
        | _ => cases hx
      · obtain ⟨f, hf, he⟩ := List.mem_flatMap.1 he
        obtain ⟨s, hs, hx⟩ := List.mem_flatMap.1 hf
        cases s with
        | element l => exact h1 _ hs _ (List.mem_flatMap.2 ⟨f, hx, he⟩)
        | _ => cases hx
      · obtain ⟨f, hf, he⟩ := List.mem_flatMap.1 he
        obtain ⟨s, hs, hx⟩ := List.mem_flatMap.1 hf
        cases s with
        | data l => exact h1 _ hs _ (List.mem_flatMap.2 ⟨f, hx, he⟩)
        | _ => cases hx
    rw [List.length_append]
    omega

end Wadec
