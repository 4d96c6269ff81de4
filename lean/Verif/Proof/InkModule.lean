import Verif.Proof.InkTypes
import Verif.Proof.Nesting
import Verif.Spec.Length

/-! C78: bounds for the debug texts of instructions and modules. -/

namespace Wadec

open Spec

theorem plainOp_text (op : PlainOp) : op.text.toList.length ≤ 40 := by cases op <;> decide +kernel
theorem memOp_text (op : MemOp) : op.text.toList.length ≤ 40 := by cases op <;> decide +kernel
theorem memLaneOp_text (op : MemLaneOp) : op.text.toList.length ≤ 40 := by cases op <;> decide +kernel
theorem laneOp_text (op : LaneOp) : op.text.toList.length ≤ 40 := by cases op <;> decide +kernel

theorem slim_listOf {α : Type} [Debug α] {c h : Nat} [Trim α c h] (t : StdText) (xs : List α) :
    Slim (3 + xs.length * (c + 2)) (h + 1) (dbg t xs) := .list (.all fun x _ => Trim.trim t x)

instance : Trim Bytes16 83 1 := ⟨fun t v => (slim_listOf t v.val).mono (by rw [v.property]; decide) (by decide)⟩

theorem slim_lanes (t : StdText) (v : Bytes16) : Slim 275 2 (dbg t (v.val.map LaneIdx.mk)) :=
  (slim_listOf t _).mono (by rw [List.length_map, v.property]; decide) (by decide)

variable {w : Nat} {T : StdText}

mutual
theorem slim_instr (hw : FloatsWithin w T) : ∀ i : Instr, Slim ((302 + w) * nodesInstr i - 2) (7 + 3 * depthInstr i) (i.dbg T)
  | .Block bt is => by
    have := slim_instrs hw is
    simp only [Instr.dbg, nodesInstr, depthInstr]
    apply Slim.mono
    · exact Slim.tuple (.cons (Trim.trim _ _) (.cons (.list this) .nil))
    · rw [show "Block".toList.length = 5 from rfl, Nat.mul_add]; omega
    · omega
  | .Loop bt is => by
    have := slim_instrs hw is
    simp only [Instr.dbg, nodesInstr, depthInstr]
    apply Slim.mono
    · exact Slim.tuple (.cons (Trim.trim _ _) (.cons (.list this) .nil))
    · rw [show "Loop".toList.length = 4 from rfl, Nat.mul_add]; omega
    · omega
  | .If bt is none => by
    have := slim_instrs hw is
    simp only [Instr.dbg, instrsOptDbg, nodesInstr, nodesOpt, depthInstr, depthOpt]
    apply Slim.mono
    · exact Slim.tuple (.cons (Trim.trim _ _) (.cons (.list this) (.cons (.word _) .nil)))
    · rw [show "If".toList.length = 2 from rfl, show "None".toList.length = 4 from rfl, Nat.mul_add, Nat.mul_add]; omega
    · omega
  | .If bt is (some es) => by
    have h1 := slim_instrs hw is
    have h2 := slim_instrs hw es
    simp only [Instr.dbg, instrsOptDbg, nodesInstr, nodesOpt, depthInstr, depthOpt]
    apply Slim.mono
    · exact Slim.tuple (.cons (Trim.trim _ _) (.cons (.list h1) (.cons (.tuple (.cons (.list h2) .nil)) .nil)))
    · rw [show "If".toList.length = 2 from rfl, show "Some".toList.length = 4 from rfl, Nat.mul_add, Nat.mul_add]; omega
    · omega
  | .TryTable bt cs is => by
    have := slim_instrs hw is
    simp only [Instr.dbg, nodesInstr, depthInstr]
    apply Slim.mono
    · exact Slim.tuple (.cons (Trim.trim _ _) (.cons (slim_listOf _ _) (.cons (.list this) .nil)))
    · rw [show "TryTable".toList.length = 8 from rfl, Nat.mul_add (302 + w) (1 + cs.length), Nat.mul_add (302 + w) 1,
        Nat.mul_comm (302 + w) cs.length]
      have : cs.length * 65 ≤ cs.length * (302 + w) := Nat.mul_le_mul_left _ (by omega)
      omega
    · omega
  | .BrTable ls l => by
    simp only [Instr.dbg, nodesInstr, depthInstr]
    apply Slim.mono
    · exact Slim.tuple (.cons (slim_listOf _ _) (.cons (Trim.trim _ _) .nil))
    · rw [show "BrTable".toList.length = 7 from rfl, Nat.mul_add (302 + w) 1, Nat.mul_comm (302 + w) ls.length]
      have : ls.length * 26 ≤ ls.length * (302 + w) := Nat.mul_le_mul_left _ (by omega)
      omega
    · omega
  | .Select (some ts) => by
    simp only [Instr.dbg, nodesInstr, depthInstr]
    apply Slim.mono
    · exact Slim.tuple (.cons (show Slim _ _ (.tuple "Some" [dbg T ts]) from .tuple (.cons (slim_listOf _ _) .nil)) .nil)
    · rw [show "Select".toList.length = 6 from rfl, show "Some".toList.length = 4 from rfl, Nat.mul_add (302 + w) 1,
        Nat.mul_comm (302 + w) ts.length]
      have : ts.length * 81 ≤ ts.length * (302 + w) := Nat.mul_le_mul_left _ (by omega)
      omega
    · omega
  | .Select none => by
    simp only [Instr.dbg, nodesInstr, depthInstr]
    apply Slim.mono
    · exact Slim.tuple (.cons (show Slim _ _ (.word "None") from .word _) .nil)
    · rw [show "Select".toList.length = 6 from rfl, show "None".toList.length = 4 from rfl]; omega
    · omega
  | .plain op => by
    have := plainOp_text op
    simp only [Instr.dbg, nodesInstr]
    exact (Slim.word _).mono (by omega) (by omega)
  | .mem op m => by
    have := memOp_text op
    simp only [Instr.dbg, nodesInstr]
    exact (Slim.tuple (.cons (Trim.trim _ _) .nil)).mono (by omega) (by omega)
  | .memLane op m l => by
    have := memLaneOp_text op
    simp only [Instr.dbg, nodesInstr]
    exact (Slim.tuple (.cons (Trim.trim _ _) (.cons (Trim.trim _ _) .nil))).mono (by omega) (by omega)
  | .lane op l => by
    have := laneOp_text op
    simp only [Instr.dbg, nodesInstr]
    exact (Slim.tuple (.cons (Trim.trim _ _) .nil)).mono (by omega) (by omega)
  | .F32Const x => by
    have := hw.1 x
    simp only [Instr.dbg, nodesInstr]
    refine (Slim.tuple (.cons (.word _) .nil)).mono ?_ (by omega)
    rw [show "F32Const".toList.length = 8 from rfl, String.length_toList]; omega
  | .F64Const x => by
    have := hw.2 x
    simp only [Instr.dbg, nodesInstr]
    refine (Slim.tuple (.cons (.word _) .nil)).mono ?_ (by omega)
    rw [show "F64Const".toList.length = 8 from rfl, String.length_toList]; omega
  | .I8x16Shuffle v => by
    simp only [Instr.dbg, nodesInstr]
    refine (Slim.tuple (.cons (slim_lanes _ _) .nil)).mono ?_ (by omega)
    rw [show "I8x16Shuffle".toList.length = 12 from rfl]; omega
  | .Br .. | .BrIf .. | .BrOnNull .. | .BrOnNonNull .. | .BrOnCast .. | .BrOnCastFail .. | .Call .. | .CallRef ..
  | .CallIndirect .. | .ReturnCall .. | .ReturnCallRef .. | .ReturnCallIndirect .. | .Throw .. | .RefFunc .. | .RefNull ..
  | .RefTest .. | .RefCast .. | .StructNew .. | .StructNewDefault .. | .StructGet .. | .StructGetS .. | .StructGetU ..
  | .StructSet .. | .ArrayNew .. | .ArrayNewDefault .. | .ArrayNewFixed .. | .ArrayNewData .. | .ArrayNewElem ..
  | .ArrayGet .. | .ArrayGetS .. | .ArrayGetU .. | .ArraySet .. | .ArrayFill .. | .ArrayCopy .. | .ArrayInitData ..
  | .ArrayInitElem .. | .LocalGet .. | .LocalSet .. | .LocalTee .. | .GlobalGet .. | .GlobalSet .. | .TableGet ..
  | .TableSet .. | .TableInit .. | .ElemDrop .. | .TableCopy .. | .TableGrow .. | .TableSize .. | .TableFill ..
  | .MemorySize .. | .MemoryGrow .. | .MemoryInit .. | .DataDrop .. | .MemoryCopy .. | .MemoryFill .. | .I32Const ..
  | .I64Const .. | .V128Const .. => by
    simp only [Instr.dbg, nodesInstr]
    refine Slim.mono (c := 300) (h := 7) ?_ (by omega) (by omega)
    slims
theorem slim_instrs (hw : FloatsWithin w T) : ∀ is : List Instr,
    SlimItems ((302 + w) * nodesInstrs is) (8 + 3 * depthInstrs is) (instrsDbg T is)
  | [] => SlimItems.nil.mono (Nat.zero_le _) (Nat.zero_le _)
  | i :: is => by
    have hp : 1 ≤ nodesInstr i := by cases i with
      | Select o => cases o <;> simp only [nodesInstr] <;> omega
      | _ => simp only [nodesInstr] <;> omega
    have h2 := Nat.mul_le_mul_left (302 + w) hp
    refine (SlimItems.cons (slim_instr hw i) (slim_instrs hw is)).mono ?_ ?_
    · rw [nodesInstrs, Nat.mul_add]; omega
    · rw [depthInstrs]; omega
end

theorem escapeChar_length (hidden : Char → Bool) (c : Char) : (escapeChar hidden c).length ≤ 10 := by
  have hc : c.toNat < 16 ^ (5 + 1) := Nat.lt_of_lt_of_le (show c.toNat < 0x110000 from by
    have := c.valid; simp only [Char.toNat, UInt32.isValidChar, Nat.isValidChar] at *; omega) (by decide)
  have := toDigits_length (b := 16) (by decide) 5 c.toNat hc
  unfold escapeChar
  repeat' split
  all_goals simp only [List.length_cons, List.length_append, List.length_nil]
  all_goals omega

theorem escape_length (hidden : Char → Bool) : ∀ cs : List Char, (cs.flatMap (escapeChar hidden)).length ≤ 10 * cs.length
  | [] => by simp
  | c :: cs => by
    have h1 := escapeChar_length hidden c
    have h2 := escape_length hidden cs
    simp only [List.flatMap_cons, List.length_append, List.length_cons]; omega

theorem utf8Chars_length (bs : List UInt8) : (utf8Chars bs).length ≤ bs.length := by
  fun_induction utf8Chars bs <;> simp only [List.length_cons, List.length_nil] <;> omega

theorem slim_str (t : StdText) (s : Str) : Slim (2 + 10 * s.bytes.length) 0 (dbg t s) := by
  refine Slim.str ?_
  rw [String.toList_ofList]
  have h1 := escape_length t.hidden (utf8Chars s.bytes)
  have h2 := utf8Chars_length s.bytes
  omega

/-- the elements of a list of types of fixed size -/
theorem slim_items {α : Type} [Debug α] {c h : Nat} [Trim α c h] {k : Nat} (hk : c + 2 ≤ k) (t : StdText) (xs : List α) :
    Slim (3 + k * xs.length) (h + 1) (dbg t xs) :=
  (slim_listOf t xs).mono (by
    have := Nat.mul_le_mul_left xs.length hk
    rw [Nat.mul_comm k]; omega) (Nat.le_refl _)

variable {k : Nat}

theorem slim_expr (hw : FloatsWithin w T) (hk : k = 400 + w) (e : Expr) :
    Slim (3 + k * nodesInstrs e) (8 + 3 * depthInstrs e) (.list (instrsDbg T e)) :=
  (Slim.list (slim_instrs hw e)).mono (by
    have := Nat.mul_le_mul_right (nodesInstrs e) (show 302 + w ≤ k by omega)
    omega) (Nat.le_refl _)

theorem slim_compType (hk : 400 ≤ k) (t : StdText) (x : CompType) : Slim (k * nodesCompType x) 8 (dbg t x) := by
  cases x with
  | Struct fs =>
    apply Slim.mono
    · exact Slim.tuple (.cons (slim_items (k := k) (by omega) _ _) .nil)
    · rw [show "Struct".toList.length = 6 from rfl]; simp only [nodesCompType, Nat.mul_add, Nat.mul_one]; omega
    · omega
  | Array f =>
    apply Slim.mono
    · exact Slim.tuple (.cons (Trim.trim _ _) .nil)
    · rw [show "Array".toList.length = 5 from rfl]; simp only [nodesCompType, Nat.mul_one]; omega
    · omega
  | Func ps rs =>
    apply Slim.mono
    · exact Slim.struct (.cons (slim_items (k := k) (by omega) _ _) (.cons (slim_items (k := k) (by omega) _ _) .nil))
    · rw [show "Func".toList.length = 4 from rfl, show "parameters".toList.length = 10 from rfl,
        show "results".toList.length = 7 from rfl]
      simp only [nodesCompType, Nat.mul_add, Nat.mul_one]; omega
    · omega

theorem slim_subType (hk : 400 ≤ k) (t : StdText) (x : SubType) : Slim (k * nodesSubType x - 2) 9 (dbg t x) := by
  apply Slim.mono
  · exact Slim.struct (.cons (Trim.trim _ _) (.cons (slim_items (k := k) (by omega) _ _) (.cons (slim_compType hk _ _) .nil)))
  · rw [show "SubType".toList.length = 7 from rfl, show "is_final".toList.length = 8 from rfl,
      show "supertypes".toList.length = 10 from rfl, show "comptype".toList.length = 8 from rfl]
    simp only [nodesSubType, Nat.mul_add, Nat.mul_one]; omega
  · omega

/-- a list of elements with their own sizes -/
theorem slim_sized {α : Type} [Debug α] {size : α → Nat} {h : Nat} {t : StdText} {xs : List α} (hk : 2 ≤ k)
    (h1 : ∀ x ∈ xs, Slim (k * size x - 2) h (dbg t x)) (h2 : ∀ x, 1 ≤ size x) :
    Slim (3 + k * total size xs) (h + 1) (dbg t xs) :=
  .list (.total fun x hx => ⟨h1 x hx, Nat.le_trans hk (Nat.le_mul_of_pos_right _ (h2 x))⟩)

theorem slim_recType (hk : 400 ≤ k) (t : StdText) (x : RecType) : Slim (k * nodesRecType x - 2) 11 (dbg t x) := by
  apply Slim.mono
  · exact Slim.tuple (.cons (slim_sized (k := k) (by omega) (fun x _ => slim_subType hk t x)
      (fun x => by unfold nodesSubType; omega)) .nil)
  · rw [show "RecType".toList.length = 7 from rfl]
    simp only [nodesRecType, Nat.mul_add, Nat.mul_one]; omega
  · omega

theorem slim_name (hk : 400 ≤ k) (t : StdText) (s : Str) : Slim (k * nodesName s - 2) 0 (dbg t s) :=
  (slim_str t s).mono (by
    have := Nat.mul_le_mul_right s.bytes.length (show 10 ≤ k by omega)
    simp only [nodesName, Nat.mul_add, Nat.mul_one]; omega) (Nat.le_refl _)

theorem slim_import (hk : 400 ≤ k) (t : StdText) (x : Import) : Slim (k * nodesImport x - 2) 7 (dbg t x) := by
  apply Slim.mono
  · exact Slim.struct (.cons (slim_name hk _ _) (.cons (slim_name hk _ _) (.cons (Trim.trim _ _) .nil)))
  · rw [show "Import".toList.length = 6 from rfl, show "module_name".toList.length = 11 from rfl,
      show "item_name".toList.length = 9 from rfl, show "extern_type".toList.length = 11 from rfl]
    simp only [nodesImport, nodesName, Nat.mul_add, Nat.mul_one]; omega
  · omega

theorem slim_export (hk : 400 ≤ k) (t : StdText) (x : Export) : Slim (k * nodesExport x - 2) 3 (dbg t x) := by
  apply Slim.mono
  · exact Slim.struct (.cons (slim_name hk _ _) (.cons (Trim.trim _ _) .nil))
  · rw [show "Export".toList.length = 6 from rfl, show "name".toList.length = 4 from rfl,
      show "externidx".toList.length = 9 from rfl]
    simp only [nodesExport, nodesName, Nat.mul_add, Nat.mul_one]; omega
  · omega

theorem slim_custom (hk : 400 ≤ k) (t : StdText) (x : CustomSection) : Slim (k * nodesCustom x - 2) 2 (dbg t x) := by
  apply Slim.mono
  · exact Slim.struct (.cons (slim_str _ _) (.cons (slim_items (k := k) (by omega) _ _) .nil))
  · have := Nat.mul_le_mul_right x.name.bytes.length (show 10 ≤ k by omega)
    rw [show "CustomSection".toList.length = 13 from rfl, show "name".toList.length = 4 from rfl,
      show "contents".toList.length = 8 from rfl]
    simp only [nodesCustom, nodesName, Nat.mul_add, Nat.mul_one]; omega
  · omega

theorem slim_table (hw : FloatsWithin w T) (hk : k = 400 + w) (x : Table) :
    Slim (k * nodesTable x - 2) (9 + 3 * depthInstrs x.init) (dbg T x) := by
  apply Slim.mono
  · exact Slim.tuple (.cons (Trim.trim _ _) (.cons (slim_expr hw hk _) .nil))
  · rw [show "Table".toList.length = 5 from rfl]
    simp only [nodesTable, nodesExpr, Nat.mul_add, Nat.mul_one]; omega
  · omega

theorem slim_global (hw : FloatsWithin w T) (hk : k = 400 + w) (x : Global) :
    Slim (k * nodesGlobal x - 2) (9 + 3 * depthInstrs x.init) (dbg T x) := by
  apply Slim.mono
  · exact Slim.struct (.cons (Trim.trim _ _) (.cons (slim_expr hw hk _) .nil))
  · rw [show "Global".toList.length = 6 from rfl, show "type".toList.length = 4 from rfl, show "init".toList.length = 4 from rfl]
    simp only [nodesGlobal, nodesExpr, Nat.mul_add, Nat.mul_one]; omega
  · omega

theorem slim_func (hw : FloatsWithin w T) (hk : k = 400 + w) (x : Func) :
    Slim (k * (nodesFunc x + x.locals.length) - 2) (9 + 3 * depthInstrs x.body) (dbg T x) := by
  apply Slim.mono
  · exact Slim.struct (.cons (Trim.trim _ _) (.cons (slim_items (k := k) (by omega) _ _) (.cons (slim_expr hw hk _) .nil)))
  · rw [show "Func".toList.length = 4 from rfl, show "type".toList.length = 4 from rfl, show "locals".toList.length = 6 from rfl,
      show "body".toList.length = 4 from rfl]
    simp only [nodesFunc, nodesExpr, Nat.mul_add, Nat.mul_one]; omega
  · omega

/-- the offset of an active segment -/
def elemOffset : ElemMode → Nat
  | .Active _ o => depthInstrs o
  | _ => 0
def dataOffset : DataMode → Nat
  | .Active _ o => depthInstrs o
  | _ => 0

theorem slim_elemMode (hw : FloatsWithin w T) (hk : k = 400 + w) (x : ElemMode) :
    Slim (100 + k * nodesElemMode x) (9 + 3 * elemOffset x) (dbg T x) := by
  cases x with
  | Passive => exact (Slim.word "Passive").mono (by rw [show "Passive".toList.length = 7 from rfl]; omega) (by omega)
  | Declare => exact (Slim.word "Declare").mono (by rw [show "Declare".toList.length = 7 from rfl]; omega) (by omega)
  | Active i o =>
    apply Slim.mono
    · exact Slim.struct (.cons (Trim.trim _ _) (.cons (slim_expr hw hk _) .nil))
    · rw [show "Active".toList.length = 6 from rfl, show "table".toList.length = 5 from rfl, show "offset".toList.length = 6 from rfl]
      simp only [nodesElemMode, nodesExpr, Nat.mul_add, Nat.mul_one]; omega
    · simp only [elemOffset]; omega

theorem slim_dataMode (hw : FloatsWithin w T) (hk : k = 400 + w) (x : DataMode) :
    Slim (100 + k * nodesDataMode x) (9 + 3 * dataOffset x) (dbg T x) := by
  cases x with
  | Passive => exact (Slim.word "Passive").mono (by rw [show "Passive".toList.length = 7 from rfl]; omega) (by omega)
  | Active i o =>
    apply Slim.mono
    · exact Slim.struct (.cons (Trim.trim _ _) (.cons (slim_expr hw hk _) .nil))
    · rw [show "Active".toList.length = 6 from rfl, show "memory".toList.length = 6 from rfl, show "offset".toList.length = 6 from rfl]
      simp only [nodesDataMode, nodesExpr, Nat.mul_add, Nat.mul_one]; omega
    · simp only [dataOffset]; omega

theorem slim_elem (hw : FloatsWithin w T) (hk : k = 400 + w) {d : Nat} (x : Elem) (h1 : ∀ e ∈ x.init, depthInstrs e ≤ d)
    (h2 : elemOffset x.mode ≤ d) : Slim (k * nodesElem x - 2) (10 + 3 * d) (dbg T x) := by
  have hi : SlimItems (k * total nodesExpr x.init) (8 + 3 * d + 1) (x.init.map fun e => Dbg.list (instrsDbg T e)) := by
    refine SlimItems.total fun e he => ⟨(slim_expr hw hk e).mono ?_ (by have := h1 e he; omega), ?_⟩
    · simp only [nodesExpr, Nat.mul_add, Nat.mul_one]; omega
    · simp only [nodesExpr, Nat.mul_add, Nat.mul_one]; omega
  apply Slim.mono
  · exact Slim.struct (.cons (Trim.trim _ _) (.cons (.list hi) (.cons (slim_elemMode hw hk _) .nil)))
  · rw [show "Elem".toList.length = 4 from rfl, show "type".toList.length = 4 from rfl, show "init".toList.length = 4 from rfl,
      show "mode".toList.length = 4 from rfl]
    simp only [nodesElem, Nat.mul_add, Nat.mul_one]; omega
  · omega

theorem slim_data (hw : FloatsWithin w T) (hk : k = 400 + w) (x : Data) :
    Slim (k * nodesData x - 2) (10 + 3 * dataOffset x.mode) (dbg T x) := by
  apply Slim.mono
  · exact Slim.struct (.cons (slim_items (k := k) (by omega) _ _) (.cons (slim_dataMode hw hk _) .nil))
  · rw [show "Data".toList.length = 4 from rfl, show "init".toList.length = 4 from rfl, show "mode".toList.length = 4 from rfl]
    simp only [nodesData, Nat.mul_add, Nat.mul_one]; omega
  · omega

theorem total_both {α : Type} (f g : α → Nat) : ∀ xs : List α, total (fun x => f x + g x) xs = total f xs + total g xs
  | [] => rfl
  | x :: xs => by have := total_both f g xs; simp only [total]; omega

theorem slim_option {α : Type} [Debug α] {c h : Nat} [Trim α c h] (hk : c + 9 ≤ k) (t : StdText) (o : Option α) :
    Slim (4 + k * count o) (h + 1) (dbg t o) := by
  cases o with
  | none => exact (Slim.word "None").mono (by rw [show "None".toList.length = 4 from rfl]; omega) (by omega)
  | some x =>
    refine (Slim.tuple (n := "Some") (.cons (Trim.trim t x) .nil)).mono ?_ (by omega)
    rw [show "Some".toList.length = 4 from rfl, count, Nat.mul_one]; omega

theorem slim_module (hw : FloatsWithin w T) (m : Module) :
    Slim ((400 + w) * (nodesModule m + localsModule m) - 1) (13 + 3 * depthModule m) (dbg T m) := by
  obtain ⟨k, hk⟩ : ∃ k, k = 400 + w := ⟨_, rfl⟩
  rw [← hk]
  have hk' : 400 ≤ k := by omega
  obtain ⟨d1, d2, d3, d4, d5⟩ := (depthModule_lt (d := depthModule m + 1) (by omega) (m := m)).1 (by omega)
  generalize hd : depthModule m = d at *
  have p1 := slim_items (k := k) (by omega) T m.version
  have p2 := slim_items (k := k) (by omega) T m.parsed_section_kinds
  have p3 := slim_items (k := k) (by omega) T m.section_headers
  have p4 := slim_sized (k := k) (by omega) (fun x (_ : x ∈ m.custom_sections) => slim_custom hk' T x)
    (fun x => by unfold nodesCustom nodesName; omega)
  have p5 := slim_sized (k := k) (by omega) (fun x (_ : x ∈ m.types) => slim_recType hk' T x)
    (fun x => by unfold nodesRecType; omega)
  have p6 := slim_sized (k := k) (h := 9 + 3 * d) (by omega) (fun x (hx : x ∈ m.funcs) => (slim_func hw hk x).mono (Nat.le_refl _)
    (by have := d1 x hx; omega)) (fun x => by unfold nodesFunc; omega)
  have p7 := slim_sized (k := k) (h := 9 + 3 * d) (by omega) (fun x (hx : x ∈ m.tables) => (slim_table hw hk x).mono (Nat.le_refl _)
    (by have := d3 x hx; omega)) (fun x => by unfold nodesTable; omega)
  have p8 := slim_items (k := k) (by omega) T m.mems
  have p9 := slim_sized (k := k) (h := 9 + 3 * d) (by omega) (fun x (hx : x ∈ m.globals) => (slim_global hw hk x).mono (Nat.le_refl _)
    (by have := d2 x hx; omega)) (fun x => by unfold nodesGlobal; omega)
  have p10 := slim_sized (k := k) (h := 10 + 3 * d) (by omega) (fun x (hx : x ∈ m.elems) => slim_elem hw hk (d := d) x
    (fun e he => Nat.le_of_lt_succ ((d4 x hx).1 e he))
    (by
      cases hm : x.mode with
      | Active i o => exact Nat.le_of_lt_succ ((d4 x hx).2 i o hm)
      | _ => exact Nat.zero_le _)) (fun x => by unfold nodesElem; omega)
  have p11 := slim_option (k := k) (by omega) T m.data_count
  have p12 := slim_sized (k := k) (h := 10 + 3 * d) (by omega) (fun x (hx : x ∈ m.datas) => (slim_data hw hk x).mono (Nat.le_refl _)
    (by
      have h5 := d5 x hx
      cases hm : x.mode with
      | Active i o => have : depthInstrs o < d + 1 := h5 i o hm
                      show 10 + 3 * depthInstrs o ≤ _; omega
      | Passive => show 10 + 3 * 0 ≤ _; omega)) (fun x => by unfold nodesData; omega)
  have p13 := slim_option (k := k) (by omega) T m.start
  have p14 := slim_sized (k := k) (by omega) (fun x (_ : x ∈ m.imports) => slim_import hk' T x)
    (fun x => by unfold nodesImport; omega)
  have p15 := slim_sized (k := k) (by omega) (fun x (_ : x ∈ m.exports) => slim_export hk' T x)
    (fun x => by unfold nodesExport; omega)
  have p16 := slim_items (k := k) (by omega) T m.tags
  apply Slim.mono
  · exact Slim.struct (.cons p1 (.cons p2 (.cons p3 (.cons p4 (.cons p5 (.cons p6 (.cons p7 (.cons p8 (.cons p9 (.cons p10
      (.cons p11 (.cons p12 (.cons p13 (.cons p14 (.cons p15 (.cons p16 .nil))))))))))))))))
  · rw [total_both nodesFunc]
    simp only [show "Module".toList.length = 6 from rfl, show "version".toList.length = 7 from rfl,
      show "parsed_section_kinds".toList.length = 20 from rfl, show "section_headers".toList.length = 15 from rfl,
      show "custom_sections".toList.length = 15 from rfl, show "types".toList.length = 5 from rfl,
      show "funcs".toList.length = 5 from rfl, show "tables".toList.length = 6 from rfl, show "mems".toList.length = 4 from rfl,
      show "globals".toList.length = 7 from rfl, show "elems".toList.length = 5 from rfl, show "data_count".toList.length = 10 from rfl,
      show "datas".toList.length = 5 from rfl, show "start".toList.length = 5 from rfl, show "imports".toList.length = 7 from rfl,
      show "exports".toList.length = 7 from rfl, show "tags".toList.length = 4 from rfl,
      nodesModule, localsModule, Nat.mul_add, Nat.mul_one]
    clear p1 p2 p3 p4 p5 p6 p7 p8 p9 p10 p11 p12 p13 p14 p15 p16 d1 d2 d3 d4 d5
    generalize k * m.version.length = a1
    generalize k * m.parsed_section_kinds.length = a2
    generalize k * m.section_headers.length = a3
    generalize k * total nodesCustom m.custom_sections = a4
    generalize k * total nodesRecType m.types = a5
    generalize k * total nodesFunc m.funcs = a6
    generalize k * total nodesTable m.tables = a7
    generalize k * m.mems.length = a8
    generalize k * total nodesGlobal m.globals = a9
    generalize k * total nodesElem m.elems = a10
    generalize k * count m.data_count = a11
    generalize k * total nodesData m.datas = a12
    generalize k * count m.start = a13
    generalize k * total nodesImport m.imports = a14
    generalize k * total nodesExport m.exports = a15
    generalize k * m.tags.length = a16
    generalize k * total (fun f => f.locals.length) m.funcs = a17
    omega
  · omega

end Wadec
