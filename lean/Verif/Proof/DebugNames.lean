import Verif.Proof.DebugTypes

/-! Generated by tools/gen_tells_instr.py: the names of the instructions differ. -/

set_option maxRecDepth 4000

namespace Wadec

/-- the names of all instructions -/
def allNames : List String := [
  "Unreachable", "Nop", "Return", "ThrowRef", "RefIsNull", "RefAsNonNull", "RefEq", "ArrayLen",
  "AnyConvertExtern", "ExternConvertAny", "RefI31", "I31GetS", "I31GetU", "Drop", "I32Eqz", "I32Eq", "I32Ne",
  "I32LtS", "I32LtU", "I32GtS", "I32GtU", "I32LeS", "I32LeU", "I32GeS", "I32GeU", "I64Eqz", "I64Eq", "I64Ne",
  "I64LtS", "I64LtU", "I64GtS", "I64GtU", "I64LeS", "I64LeU", "I64GeS", "I64GeU", "F32Eq", "F32Ne", "F32Lt",
  "F32Gt", "F32Le", "F32Ge", "F64Eq", "F64Ne", "F64Lt", "F64Gt", "F64Le", "F64Ge", "I32Clz", "I32Ctz",
  "I32Popcnt", "I32Add", "I32Sub", "I32Mul", "I32DivS", "I32DivU", "I32RemS", "I32RemU", "I32And", "I32Or",
  "I32Xor", "I32Shl", "I32ShrS", "I32ShrU", "I32Rotl", "I32Rotr", "I64Clz", "I64Ctz", "I64Popcnt", "I64Add",
  "I64Sub", "I64Mul", "I64DivS", "I64DivU", "I64RemS", "I64RemU", "I64And", "I64Or", "I64Xor", "I64Shl",
  "I64ShrS", "I64ShrU", "I64Rotl", "I64Rotr", "F32Abs", "F32Neg", "F32Ceil", "F32Floor", "F32Trunc",
  "F32Nearest", "F32Sqrt", "F32Add", "F32Sub", "F32Mul", "F32Div", "F32Min", "F32Max", "F32Copysign",
  "F64Abs", "F64Neg", "F64Ceil", "F64Floor", "F64Trunc", "F64Nearest", "F64Sqrt", "F64Add", "F64Sub",
  "F64Mul", "F64Div", "F64Min", "F64Max", "F64Copysign", "I32WrapI64", "I32TruncF32S", "I32TruncF32U",
  "I32TruncF64S", "I32TruncF64U", "I64ExtendI32S", "I64ExtendI32U", "I64TruncF32S", "I64TruncF32U",
  "I64TruncF64S", "I64TruncF64U", "F32ConvertI32S", "F32ConvertI32U", "F32ConvertI64S", "F32ConvertI64U",
  "F32DemoteF64", "F64ConvertI32S", "F64ConvertI32U", "F64ConvertI64S", "F64ConvertI64U", "F64PromoteF32",
  "I32ReinterpretF32", "I64ReinterpretF64", "F32ReinterpretI32", "F64ReinterpretI64", "I32Extend8S",
  "I32Extend16S", "I64Extend8S", "I64Extend16S", "I64Extend32S", "I32TruncSatF32S", "I32TruncSatF32U",
  "I32TruncSatF64S", "I32TruncSatF64U", "I64TruncSatF32S", "I64TruncSatF32U", "I64TruncSatF64S",
  "I64TruncSatF64U", "I8x16Swizzle", "I8x16RelaxedSwizzle", "I8x16Splat", "I16x8Splat", "I32x4Splat",
  "I64x2Splat", "F32x4Splat", "F64x2Splat", "I8x16Eq", "I8x16Ne", "I8x16LtS", "I8x16LtU", "I8x16GtS",
  "I8x16GtU", "I8x16LeS", "I8x16LeU", "I8x16GeS", "I8x16GeU", "I16x8Eq", "I16x8Ne", "I16x8LtS", "I16x8LtU",
  "I16x8GtS", "I16x8GtU", "I16x8LeS", "I16x8LeU", "I16x8GeS", "I16x8GeU", "I32x4Eq", "I32x4Ne", "I32x4LtS",
  "I32x4LtU", "I32x4GtS", "I32x4GtU", "I32x4LeS", "I32x4LeU", "I32x4GeS", "I32x4GeU", "I64x2Eq", "I64x2Ne",
  "I64x2LtS", "I64x2GtS", "I64x2LeS", "I64x2GeS", "F32x4Eq", "F32x4Ne", "F32x4Lt", "F32x4Gt", "F32x4Le",
  "F32x4Ge", "F64x2Eq", "F64x2Ne", "F64x2Lt", "F64x2Gt", "F64x2Le", "F64x2Ge", "V128Not", "V128And",
  "V128AndNot", "V128Or", "V128Xor", "V128Bitselect", "I8x16RelaxedLaneSelect", "I16x8RelaxedLaneSelect",
  "I32x4RelaxedLaneSelect", "I64x2RelaxedLaneSelect", "V128AnyTrue", "I8x16Abs", "I8x16Neg", "I8x16Popcnt",
  "I8x16AllTrue", "I8x16Bitmask", "I8x16NarrowI16x8S", "I8x16NarrowI16x8U", "I8x16Shl", "I8x16ShrS",
  "I8x16ShrU", "I8x16Add", "I8x16AddSatS", "I8x16AddSatU", "I8x16Sub", "I8x16SubSatS", "I8x16SubSatU",
  "I8x16MinS", "I8x16MinU", "I8x16MaxS", "I8x16MaxU", "I8x16AvgrU", "I16x8ExtaddPairwiseI8x16S",
  "I16x8ExtaddPairwiseI8x16U", "I16x8Abs", "I16x8Neg", "I16x8Q15MulrSatS", "I16x8AllTrue", "I16x8Bitmask",
  "I16x8NarrowI32x4S", "I16x8NarrowI32x4U", "I16x8ExtendLowI8x16S", "I16x8ExtendHighI8x16S",
  "I16x8ExtendLowI8x16U", "I16x8ExtendHighI8x16U", "I16x8Shl", "I16x8ShrS", "I16x8ShrU", "I16x8Add",
  "I16x8AddSatS", "I16x8AddSatU", "I16x8Sub", "I16x8SubSatS", "I16x8SubSatU", "I16x8Mul", "I16x8MinS",
  "I16x8MinU", "I16x8MaxS", "I16x8MaxU", "I16x8AvgrU", "I16x8ExtmulLowI8x16S", "I16x8ExtmulHighI8x16S",
  "I16x8ExtmulLowI8x16U", "I16x8ExtmulHighI8x16U", "I16x8RelaxedQ15MulrS", "I16x8RelaxedDotSI8x16",
  "I32x4RelaxedDotAddSI16x8", "I32x4ExtaddPairwiseI16x8S", "I32x4ExtaddPairwiseI16x8U", "I32x4Abs",
  "I32x4Neg", "I32x4AllTrue", "I32x4Bitmask", "I32x4ExtendLowI16x8S", "I32x4ExtendHighI16x8S",
  "I32x4ExtendLowI16x8U", "I32x4ExtendHighI16x8U", "I32x4Shl", "I32x4ShrS", "I32x4ShrU", "I32x4Add",
  "I32x4Sub", "I32x4Mul", "I32x4MinS", "I32x4MinU", "I32x4MaxS", "I32x4MaxU", "I32x4DotI16x8S",
  "I32x4ExtmulLowI16x8S", "I32x4ExtmulHighI16x8S", "I32x4ExtmulLowI16x8U", "I32x4ExtmulHighI16x8U",
  "I64x2Abs", "I64x2Neg", "I64x2AllTrue", "I64x2Bitmask", "I64x2ExtendLowI32x4S", "I64x2ExtendHighI32x4S",
  "I64x2ExtendLowI32x4U", "I64x2ExtendHighI32x4U", "I64x2Shl", "I64x2ShrS", "I64x2ShrU", "I64x2Add",
  "I64x2Sub", "I64x2Mul", "I64x2ExtmulLowI32x4S", "I64x2ExtmulHighI32x4S", "I64x2ExtmulLowI32x4U",
  "I64x2ExtmulHighI32x4U", "F32x4Ceil", "F32x4Floor", "F32x4Trunc", "F32x4Nearest", "F32x4Abs", "F32x4Neg",
  "F32x4Sqrt", "F32x4Add", "F32x4Sub", "F32x4Mul", "F32x4Div", "F32x4Min", "F32x4Max", "F32x4PMin",
  "F32x4PMax", "F32x4RelaxedMin", "F32x4RelaxedMax", "F32x4RelaxedMAdd", "F32x4RelaxedNMAdd", "F64x2Ceil",
  "F64x2Floor", "F64x2Trunc", "F64x2Nearest", "F64x2Abs", "F64x2Neg", "F64x2Sqrt", "F64x2Add", "F64x2Sub",
  "F64x2Mul", "F64x2Div", "F64x2Min", "F64x2Max", "F64x2PMin", "F64x2PMax", "F64x2RelaxedMin",
  "F64x2RelaxedMax", "F64x2RelaxedMAdd", "F64x2RelaxedNMAdd", "I32x4TruncSatF32x4S", "I32x4TruncSatF32x4U",
  "F32x4ConvertI32x4S", "F32x4ConvertI32x4U", "I32x4TruncSatF64x2SZero", "I32x4TruncSatF64x2UZero",
  "I32x4RelaxedTruncF32x4S", "I32x4RelaxedTruncF32x4U", "I32x4RelaxedTruncF64x2SZero",
  "I32x4RelaxedTruncF64x2UZero", "F64x2ConvertLowI32x4S", "F64x2ConvertLowI32x4U", "F32x4DemoteF64x2Zero",
  "F64x2PromoteLowF32x4", "I32Load", "I64Load", "F32Load", "F64Load", "I32Load8s", "I32Load8u", "I32Load16s",
  "I32Load16u", "I64Load8s", "I64Load8u", "I64Load16s", "I64Load16u", "I64Load32s", "I64Load32u", "I32Store",
  "I64Store", "F32Store", "F64Store", "I32Store8", "I32Store16", "I64Store8", "I64Store16", "I64Store32",
  "V128Load", "V128Load8x8S", "V128Load8x8U", "V128Load16x4S", "V128Load16x4U", "V128Load32x2S",
  "V128Load32x2U", "V128Load8Splat", "V128Load16Splat", "V128Load32Splat", "V128Load64Splat",
  "V128Load32Zero", "V128Load64Zero", "V128Store", "V128Load8Lane", "V128Load16Lane", "V128Load32Lane",
  "V128Load64Lane", "V128Store8Lane", "V128Store16Lane", "V128Store32Lane", "V128Store64Lane",
  "I8x16ExtractLaneS", "I8x16ExtractLaneU", "I8x16ReplaceLane", "I16x8ExtractLaneS", "I16x8ExtractLaneU",
  "I16x8ReplaceLane", "I32x4ExtractLane", "I32x4ReplaceLane", "I64x2ExtractLane", "I64x2ReplaceLane",
  "F32x4ExtractLane", "F32x4ReplaceLane", "F64x2ExtractLane", "F64x2ReplaceLane", "Block", "Loop", "If",
  "Br", "BrIf", "BrTable", "BrOnNull", "BrOnNonNull", "BrOnCast", "BrOnCastFail", "Call", "CallRef",
  "CallIndirect", "ReturnCall", "ReturnCallRef", "ReturnCallIndirect", "Throw", "TryTable", "RefFunc",
  "RefNull", "RefTest", "RefCast", "StructNew", "StructNewDefault", "StructGet", "StructGetS", "StructGetU",
  "StructSet", "ArrayNew", "ArrayNewDefault", "ArrayNewFixed", "ArrayNewData", "ArrayNewElem", "ArrayGet",
  "ArrayGetS", "ArrayGetU", "ArraySet", "ArrayFill", "ArrayCopy", "ArrayInitData", "ArrayInitElem", "Select",
  "LocalGet", "LocalSet", "LocalTee", "GlobalGet", "GlobalSet", "TableGet", "TableSet", "TableInit",
  "ElemDrop", "TableCopy", "TableGrow", "TableSize", "TableFill", "MemorySize", "MemoryGrow", "MemoryInit",
  "DataDrop", "MemoryCopy", "MemoryFill", "I32Const", "I64Const", "F32Const", "F64Const", "V128Const",
  "I8x16Shuffle"]

/-- a number for a name -/
def nameKey (s : String) : Nat := s.toList.foldl (fun a c => a * 256 + c.toNat) 0

def distinct : List Nat → Bool
  | [] => true
  | n :: ns => ns.all (fun m => !(Nat.beq n m)) && distinct ns

theorem distinct_get : ∀ {l : List Nat} {i j k : Nat}, distinct l = true → l[i]? = some k → l[j]? = some k → i = j
  | [], i, _, _, _, h, _ => by simp at h
  | n :: ns, i, j, k, hd, hi, hj => by
    simp only [distinct, Bool.and_eq_true, List.all_eq_true] at hd
    have no : ∀ {m : Nat}, ns[m]? = some n → False := fun {m} hm => by
      have := hd.1 n (List.mem_of_getElem? hm)
      simp at this
    cases i with
    | zero => cases j with
      | zero => rfl
      | succ j =>
        simp only [List.getElem?_cons_zero, Option.some.injEq, List.getElem?_cons_succ] at hi hj
        subst hi; exact (no hj).elim
    | succ i => cases j with
      | zero =>
        simp only [List.getElem?_cons_zero, Option.some.injEq, List.getElem?_cons_succ] at hi hj
        subst hj; exact (no hi).elim
      | succ j =>
        simp only [List.getElem?_cons_succ] at hi hj
        rw [distinct_get hd.2 hi hj]

theorem allNames_distinct : distinct (allNames.map nameKey) = true := by decide +kernel

theorem allNames_words : allNames.all isWord = true := by decide +kernel

theorem allNames_get {i j : Nat} {s : String} (hi : allNames[i]? = some s) (hj : allNames[j]? = some s) : i = j :=
  distinct_get allNames_distinct (k := nameKey s) (by rw [List.getElem?_map, hi]; rfl)
    (by rw [List.getElem?_map, hj]; rfl)

theorem allNames_word {i : Nat} {s : String} (hi : allNames[i]? = some s) : isWord s = true :=
  List.all_eq_true.1 allNames_words s (List.mem_of_getElem? hi)

theorem PlainOp.text_get (op : PlainOp) : allNames[op.ctorIdx]? = some op.text := by
  cases op <;> rfl

theorem PlainOp.ctorIdx_lt (op : PlainOp) : op.ctorIdx < 368 := by cases op <;> exact Nat.le_of_ble_eq_true rfl

theorem PlainOp.text_inj {a b : PlainOp} (h : a.text = b.text) : a = b := by
  have e := allNames_get a.text_get (h ▸ b.text_get)
  have e : a.ctorIdx = b.ctorIdx := by omega
  rw [← PlainOp.ofNat_ctorIdx a, ← PlainOp.ofNat_ctorIdx b, e]

theorem MemOp.text_get (op : MemOp) : allNames[368 + op.ctorIdx]? = some op.text := by
  cases op <;> rfl

theorem MemOp.ctorIdx_lt (op : MemOp) : op.ctorIdx < 37 := by cases op <;> exact Nat.le_of_ble_eq_true rfl

theorem MemOp.text_inj {a b : MemOp} (h : a.text = b.text) : a = b := by
  have e := allNames_get a.text_get (h ▸ b.text_get)
  have e : a.ctorIdx = b.ctorIdx := by omega
  rw [← MemOp.ofNat_ctorIdx a, ← MemOp.ofNat_ctorIdx b, e]

theorem MemLaneOp.text_get (op : MemLaneOp) : allNames[405 + op.ctorIdx]? = some op.text := by
  cases op <;> rfl

theorem MemLaneOp.ctorIdx_lt (op : MemLaneOp) : op.ctorIdx < 8 := by cases op <;> exact Nat.le_of_ble_eq_true rfl

theorem MemLaneOp.text_inj {a b : MemLaneOp} (h : a.text = b.text) : a = b := by
  have e := allNames_get a.text_get (h ▸ b.text_get)
  have e : a.ctorIdx = b.ctorIdx := by omega
  rw [← MemLaneOp.ofNat_ctorIdx a, ← MemLaneOp.ofNat_ctorIdx b, e]

theorem LaneOp.text_get (op : LaneOp) : allNames[413 + op.ctorIdx]? = some op.text := by
  cases op <;> rfl

theorem LaneOp.ctorIdx_lt (op : LaneOp) : op.ctorIdx < 14 := by cases op <;> exact Nat.le_of_ble_eq_true rfl

theorem LaneOp.text_inj {a b : LaneOp} (h : a.text = b.text) : a = b := by
  have e := allNames_get a.text_get (h ▸ b.text_get)
  have e : a.ctorIdx = b.ctorIdx := by omega
  rw [← LaneOp.ofNat_ctorIdx a, ← LaneOp.ofNat_ctorIdx b, e]

/-- the place of the name of an instruction in the list -/
def Instr.code : Instr → Nat
  | .plain op => op.ctorIdx
  | .mem op _ => 368 + op.ctorIdx
  | .memLane op _ _ => 405 + op.ctorIdx
  | .lane op _ => 413 + op.ctorIdx
  | i => 423 + i.ctorIdx

theorem Instr.name_get (T : StdText) (i : Instr) : allNames[i.code]? = some (i.dbg T).head := by
  cases i with
  | plain op => exact op.text_get
  | mem op m => exact op.text_get
  | memLane op m l => exact op.text_get
  | lane op l => exact op.text_get
  | _ => rfl

/-- the constructor of the instruction whose name is at this place -/
def kindAt (n : Nat) : Nat :=
  if n < 368 then 0 else if n < 405 then 1 else if n < 413 then 2 else if n < 427 then 3 else n - 423

theorem Instr.kindAt_code (i : Instr) : kindAt i.code = i.ctorIdx := by
  cases i with
  | plain op =>
    have := op.ctorIdx_lt
    show kindAt op.ctorIdx = 0
    simp only [kindAt]; rw [if_pos this]
  | mem op m =>
    have := op.ctorIdx_lt
    show kindAt (368 + op.ctorIdx) = 1
    simp only [kindAt]; rw [if_neg (by omega), if_pos (by omega)]
  | memLane op m l =>
    have := op.ctorIdx_lt
    show kindAt (405 + op.ctorIdx) = 2
    simp only [kindAt]; rw [if_neg (by omega), if_neg (by omega), if_pos (by omega)]
  | lane op l =>
    have := op.ctorIdx_lt
    show kindAt (413 + op.ctorIdx) = 3
    simp only [kindAt]; rw [if_neg (by omega), if_neg (by omega), if_neg (by omega), if_pos (by omega)]
  | _ => rfl

/-- Instructions with the same tree have the same constructor. -/
theorem Instr.same_ctor {T : StdText} {i j : Instr} (e : i.dbg T = j.dbg T) : j.ctorIdx = i.ctorIdx := by
  rw [← i.kindAt_code, ← j.kindAt_code, allNames_get (i.name_get T) (e ▸ j.name_get T)]

theorem noIdx {P : Prop} {a b : Nat} (e : a = b) (h : Nat.beq a b = false) : P := by
  subst e; simp at h

theorem Instr.inv_plain {j : Instr} (h : j.ctorIdx = 0) : ∃ a, j = .plain a := by
  cases j with
  | plain a => exact ⟨a, rfl⟩
  | _ => exact noIdx h rfl

theorem Instr.inv_mem {j : Instr} (h : j.ctorIdx = 1) : ∃ a b, j = .mem a b := by
  cases j with
  | mem a b => exact ⟨a, b, rfl⟩
  | _ => exact noIdx h rfl

theorem Instr.inv_memLane {j : Instr} (h : j.ctorIdx = 2) : ∃ a b c, j = .memLane a b c := by
  cases j with
  | memLane a b c => exact ⟨a, b, c, rfl⟩
  | _ => exact noIdx h rfl

theorem Instr.inv_lane {j : Instr} (h : j.ctorIdx = 3) : ∃ a b, j = .lane a b := by
  cases j with
  | lane a b => exact ⟨a, b, rfl⟩
  | _ => exact noIdx h rfl

theorem Instr.inv_Block {j : Instr} (h : j.ctorIdx = 4) : ∃ a b, j = .Block a b := by
  cases j with
  | Block a b => exact ⟨a, b, rfl⟩
  | _ => exact noIdx h rfl

theorem Instr.inv_Loop {j : Instr} (h : j.ctorIdx = 5) : ∃ a b, j = .Loop a b := by
  cases j with
  | Loop a b => exact ⟨a, b, rfl⟩
  | _ => exact noIdx h rfl

theorem Instr.inv_If {j : Instr} (h : j.ctorIdx = 6) : ∃ a b c, j = .If a b c := by
  cases j with
  | If a b c => exact ⟨a, b, c, rfl⟩
  | _ => exact noIdx h rfl

theorem Instr.inv_Br {j : Instr} (h : j.ctorIdx = 7) : ∃ a, j = .Br a := by
  cases j with
  | Br a => exact ⟨a, rfl⟩
  | _ => exact noIdx h rfl

theorem Instr.inv_BrIf {j : Instr} (h : j.ctorIdx = 8) : ∃ a, j = .BrIf a := by
  cases j with
  | BrIf a => exact ⟨a, rfl⟩
  | _ => exact noIdx h rfl

theorem Instr.inv_BrTable {j : Instr} (h : j.ctorIdx = 9) : ∃ a b, j = .BrTable a b := by
  cases j with
  | BrTable a b => exact ⟨a, b, rfl⟩
  | _ => exact noIdx h rfl

theorem Instr.inv_BrOnNull {j : Instr} (h : j.ctorIdx = 10) : ∃ a, j = .BrOnNull a := by
  cases j with
  | BrOnNull a => exact ⟨a, rfl⟩
  | _ => exact noIdx h rfl

theorem Instr.inv_BrOnNonNull {j : Instr} (h : j.ctorIdx = 11) : ∃ a, j = .BrOnNonNull a := by
  cases j with
  | BrOnNonNull a => exact ⟨a, rfl⟩
  | _ => exact noIdx h rfl

theorem Instr.inv_BrOnCast {j : Instr} (h : j.ctorIdx = 12) : ∃ a b c, j = .BrOnCast a b c := by
  cases j with
  | BrOnCast a b c => exact ⟨a, b, c, rfl⟩
  | _ => exact noIdx h rfl

theorem Instr.inv_BrOnCastFail {j : Instr} (h : j.ctorIdx = 13) : ∃ a b c, j = .BrOnCastFail a b c := by
  cases j with
  | BrOnCastFail a b c => exact ⟨a, b, c, rfl⟩
  | _ => exact noIdx h rfl

theorem Instr.inv_Call {j : Instr} (h : j.ctorIdx = 14) : ∃ a, j = .Call a := by
  cases j with
  | Call a => exact ⟨a, rfl⟩
  | _ => exact noIdx h rfl

theorem Instr.inv_CallRef {j : Instr} (h : j.ctorIdx = 15) : ∃ a, j = .CallRef a := by
  cases j with
  | CallRef a => exact ⟨a, rfl⟩
  | _ => exact noIdx h rfl

theorem Instr.inv_CallIndirect {j : Instr} (h : j.ctorIdx = 16) : ∃ a b, j = .CallIndirect a b := by
  cases j with
  | CallIndirect a b => exact ⟨a, b, rfl⟩
  | _ => exact noIdx h rfl

theorem Instr.inv_ReturnCall {j : Instr} (h : j.ctorIdx = 17) : ∃ a, j = .ReturnCall a := by
  cases j with
  | ReturnCall a => exact ⟨a, rfl⟩
  | _ => exact noIdx h rfl

theorem Instr.inv_ReturnCallRef {j : Instr} (h : j.ctorIdx = 18) : ∃ a, j = .ReturnCallRef a := by
  cases j with
  | ReturnCallRef a => exact ⟨a, rfl⟩
  | _ => exact noIdx h rfl

theorem Instr.inv_ReturnCallIndirect {j : Instr} (h : j.ctorIdx = 19) : ∃ a b, j = .ReturnCallIndirect a b := by
  cases j with
  | ReturnCallIndirect a b => exact ⟨a, b, rfl⟩
  | _ => exact noIdx h rfl

theorem Instr.inv_Throw {j : Instr} (h : j.ctorIdx = 20) : ∃ a, j = .Throw a := by
  cases j with
  | Throw a => exact ⟨a, rfl⟩
  | _ => exact noIdx h rfl

theorem Instr.inv_TryTable {j : Instr} (h : j.ctorIdx = 21) : ∃ a b c, j = .TryTable a b c := by
  cases j with
  | TryTable a b c => exact ⟨a, b, c, rfl⟩
  | _ => exact noIdx h rfl

theorem Instr.inv_RefFunc {j : Instr} (h : j.ctorIdx = 22) : ∃ a, j = .RefFunc a := by
  cases j with
  | RefFunc a => exact ⟨a, rfl⟩
  | _ => exact noIdx h rfl

theorem Instr.inv_RefNull {j : Instr} (h : j.ctorIdx = 23) : ∃ a, j = .RefNull a := by
  cases j with
  | RefNull a => exact ⟨a, rfl⟩
  | _ => exact noIdx h rfl

theorem Instr.inv_RefTest {j : Instr} (h : j.ctorIdx = 24) : ∃ a, j = .RefTest a := by
  cases j with
  | RefTest a => exact ⟨a, rfl⟩
  | _ => exact noIdx h rfl

theorem Instr.inv_RefCast {j : Instr} (h : j.ctorIdx = 25) : ∃ a, j = .RefCast a := by
  cases j with
  | RefCast a => exact ⟨a, rfl⟩
  | _ => exact noIdx h rfl

theorem Instr.inv_StructNew {j : Instr} (h : j.ctorIdx = 26) : ∃ a, j = .StructNew a := by
  cases j with
  | StructNew a => exact ⟨a, rfl⟩
  | _ => exact noIdx h rfl

theorem Instr.inv_StructNewDefault {j : Instr} (h : j.ctorIdx = 27) : ∃ a, j = .StructNewDefault a := by
  cases j with
  | StructNewDefault a => exact ⟨a, rfl⟩
  | _ => exact noIdx h rfl

theorem Instr.inv_StructGet {j : Instr} (h : j.ctorIdx = 28) : ∃ a b, j = .StructGet a b := by
  cases j with
  | StructGet a b => exact ⟨a, b, rfl⟩
  | _ => exact noIdx h rfl

theorem Instr.inv_StructGetS {j : Instr} (h : j.ctorIdx = 29) : ∃ a b, j = .StructGetS a b := by
  cases j with
  | StructGetS a b => exact ⟨a, b, rfl⟩
  | _ => exact noIdx h rfl

theorem Instr.inv_StructGetU {j : Instr} (h : j.ctorIdx = 30) : ∃ a b, j = .StructGetU a b := by
  cases j with
  | StructGetU a b => exact ⟨a, b, rfl⟩
  | _ => exact noIdx h rfl

theorem Instr.inv_StructSet {j : Instr} (h : j.ctorIdx = 31) : ∃ a b, j = .StructSet a b := by
  cases j with
  | StructSet a b => exact ⟨a, b, rfl⟩
  | _ => exact noIdx h rfl

theorem Instr.inv_ArrayNew {j : Instr} (h : j.ctorIdx = 32) : ∃ a, j = .ArrayNew a := by
  cases j with
  | ArrayNew a => exact ⟨a, rfl⟩
  | _ => exact noIdx h rfl

theorem Instr.inv_ArrayNewDefault {j : Instr} (h : j.ctorIdx = 33) : ∃ a, j = .ArrayNewDefault a := by
  cases j with
  | ArrayNewDefault a => exact ⟨a, rfl⟩
  | _ => exact noIdx h rfl

theorem Instr.inv_ArrayNewFixed {j : Instr} (h : j.ctorIdx = 34) : ∃ a b, j = .ArrayNewFixed a b := by
  cases j with
  | ArrayNewFixed a b => exact ⟨a, b, rfl⟩
  | _ => exact noIdx h rfl

theorem Instr.inv_ArrayNewData {j : Instr} (h : j.ctorIdx = 35) : ∃ a b, j = .ArrayNewData a b := by
  cases j with
  | ArrayNewData a b => exact ⟨a, b, rfl⟩
  | _ => exact noIdx h rfl

theorem Instr.inv_ArrayNewElem {j : Instr} (h : j.ctorIdx = 36) : ∃ a b, j = .ArrayNewElem a b := by
  cases j with
  | ArrayNewElem a b => exact ⟨a, b, rfl⟩
  | _ => exact noIdx h rfl

theorem Instr.inv_ArrayGet {j : Instr} (h : j.ctorIdx = 37) : ∃ a, j = .ArrayGet a := by
  cases j with
  | ArrayGet a => exact ⟨a, rfl⟩
  | _ => exact noIdx h rfl

theorem Instr.inv_ArrayGetS {j : Instr} (h : j.ctorIdx = 38) : ∃ a, j = .ArrayGetS a := by
  cases j with
  | ArrayGetS a => exact ⟨a, rfl⟩
  | _ => exact noIdx h rfl

theorem Instr.inv_ArrayGetU {j : Instr} (h : j.ctorIdx = 39) : ∃ a, j = .ArrayGetU a := by
  cases j with
  | ArrayGetU a => exact ⟨a, rfl⟩
  | _ => exact noIdx h rfl

theorem Instr.inv_ArraySet {j : Instr} (h : j.ctorIdx = 40) : ∃ a, j = .ArraySet a := by
  cases j with
  | ArraySet a => exact ⟨a, rfl⟩
  | _ => exact noIdx h rfl

theorem Instr.inv_ArrayFill {j : Instr} (h : j.ctorIdx = 41) : ∃ a, j = .ArrayFill a := by
  cases j with
  | ArrayFill a => exact ⟨a, rfl⟩
  | _ => exact noIdx h rfl

theorem Instr.inv_ArrayCopy {j : Instr} (h : j.ctorIdx = 42) : ∃ a b, j = .ArrayCopy a b := by
  cases j with
  | ArrayCopy a b => exact ⟨a, b, rfl⟩
  | _ => exact noIdx h rfl

theorem Instr.inv_ArrayInitData {j : Instr} (h : j.ctorIdx = 43) : ∃ a b, j = .ArrayInitData a b := by
  cases j with
  | ArrayInitData a b => exact ⟨a, b, rfl⟩
  | _ => exact noIdx h rfl

theorem Instr.inv_ArrayInitElem {j : Instr} (h : j.ctorIdx = 44) : ∃ a b, j = .ArrayInitElem a b := by
  cases j with
  | ArrayInitElem a b => exact ⟨a, b, rfl⟩
  | _ => exact noIdx h rfl

theorem Instr.inv_Select {j : Instr} (h : j.ctorIdx = 45) : ∃ a, j = .Select a := by
  cases j with
  | Select a => exact ⟨a, rfl⟩
  | _ => exact noIdx h rfl

theorem Instr.inv_LocalGet {j : Instr} (h : j.ctorIdx = 46) : ∃ a, j = .LocalGet a := by
  cases j with
  | LocalGet a => exact ⟨a, rfl⟩
  | _ => exact noIdx h rfl

theorem Instr.inv_LocalSet {j : Instr} (h : j.ctorIdx = 47) : ∃ a, j = .LocalSet a := by
  cases j with
  | LocalSet a => exact ⟨a, rfl⟩
  | _ => exact noIdx h rfl

theorem Instr.inv_LocalTee {j : Instr} (h : j.ctorIdx = 48) : ∃ a, j = .LocalTee a := by
  cases j with
  | LocalTee a => exact ⟨a, rfl⟩
  | _ => exact noIdx h rfl

theorem Instr.inv_GlobalGet {j : Instr} (h : j.ctorIdx = 49) : ∃ a, j = .GlobalGet a := by
  cases j with
  | GlobalGet a => exact ⟨a, rfl⟩
  | _ => exact noIdx h rfl

theorem Instr.inv_GlobalSet {j : Instr} (h : j.ctorIdx = 50) : ∃ a, j = .GlobalSet a := by
  cases j with
  | GlobalSet a => exact ⟨a, rfl⟩
  | _ => exact noIdx h rfl

theorem Instr.inv_TableGet {j : Instr} (h : j.ctorIdx = 51) : ∃ a, j = .TableGet a := by
  cases j with
  | TableGet a => exact ⟨a, rfl⟩
  | _ => exact noIdx h rfl

theorem Instr.inv_TableSet {j : Instr} (h : j.ctorIdx = 52) : ∃ a, j = .TableSet a := by
  cases j with
  | TableSet a => exact ⟨a, rfl⟩
  | _ => exact noIdx h rfl

theorem Instr.inv_TableInit {j : Instr} (h : j.ctorIdx = 53) : ∃ a b, j = .TableInit a b := by
  cases j with
  | TableInit a b => exact ⟨a, b, rfl⟩
  | _ => exact noIdx h rfl

theorem Instr.inv_ElemDrop {j : Instr} (h : j.ctorIdx = 54) : ∃ a, j = .ElemDrop a := by
  cases j with
  | ElemDrop a => exact ⟨a, rfl⟩
  | _ => exact noIdx h rfl

theorem Instr.inv_TableCopy {j : Instr} (h : j.ctorIdx = 55) : ∃ a b, j = .TableCopy a b := by
  cases j with
  | TableCopy a b => exact ⟨a, b, rfl⟩
  | _ => exact noIdx h rfl

theorem Instr.inv_TableGrow {j : Instr} (h : j.ctorIdx = 56) : ∃ a, j = .TableGrow a := by
  cases j with
  | TableGrow a => exact ⟨a, rfl⟩
  | _ => exact noIdx h rfl

theorem Instr.inv_TableSize {j : Instr} (h : j.ctorIdx = 57) : ∃ a, j = .TableSize a := by
  cases j with
  | TableSize a => exact ⟨a, rfl⟩
  | _ => exact noIdx h rfl

theorem Instr.inv_TableFill {j : Instr} (h : j.ctorIdx = 58) : ∃ a, j = .TableFill a := by
  cases j with
  | TableFill a => exact ⟨a, rfl⟩
  | _ => exact noIdx h rfl

theorem Instr.inv_MemorySize {j : Instr} (h : j.ctorIdx = 59) : ∃ a, j = .MemorySize a := by
  cases j with
  | MemorySize a => exact ⟨a, rfl⟩
  | _ => exact noIdx h rfl

theorem Instr.inv_MemoryGrow {j : Instr} (h : j.ctorIdx = 60) : ∃ a, j = .MemoryGrow a := by
  cases j with
  | MemoryGrow a => exact ⟨a, rfl⟩
  | _ => exact noIdx h rfl

theorem Instr.inv_MemoryInit {j : Instr} (h : j.ctorIdx = 61) : ∃ a b, j = .MemoryInit a b := by
  cases j with
  | MemoryInit a b => exact ⟨a, b, rfl⟩
  | _ => exact noIdx h rfl

theorem Instr.inv_DataDrop {j : Instr} (h : j.ctorIdx = 62) : ∃ a, j = .DataDrop a := by
  cases j with
  | DataDrop a => exact ⟨a, rfl⟩
  | _ => exact noIdx h rfl

theorem Instr.inv_MemoryCopy {j : Instr} (h : j.ctorIdx = 63) : ∃ a b, j = .MemoryCopy a b := by
  cases j with
  | MemoryCopy a b => exact ⟨a, b, rfl⟩
  | _ => exact noIdx h rfl

theorem Instr.inv_MemoryFill {j : Instr} (h : j.ctorIdx = 64) : ∃ a, j = .MemoryFill a := by
  cases j with
  | MemoryFill a => exact ⟨a, rfl⟩
  | _ => exact noIdx h rfl

theorem Instr.inv_I32Const {j : Instr} (h : j.ctorIdx = 65) : ∃ a, j = .I32Const a := by
  cases j with
  | I32Const a => exact ⟨a, rfl⟩
  | _ => exact noIdx h rfl

theorem Instr.inv_I64Const {j : Instr} (h : j.ctorIdx = 66) : ∃ a, j = .I64Const a := by
  cases j with
  | I64Const a => exact ⟨a, rfl⟩
  | _ => exact noIdx h rfl

theorem Instr.inv_F32Const {j : Instr} (h : j.ctorIdx = 67) : ∃ a, j = .F32Const a := by
  cases j with
  | F32Const a => exact ⟨a, rfl⟩
  | _ => exact noIdx h rfl

theorem Instr.inv_F64Const {j : Instr} (h : j.ctorIdx = 68) : ∃ a, j = .F64Const a := by
  cases j with
  | F64Const a => exact ⟨a, rfl⟩
  | _ => exact noIdx h rfl

theorem Instr.inv_V128Const {j : Instr} (h : j.ctorIdx = 69) : ∃ a, j = .V128Const a := by
  cases j with
  | V128Const a => exact ⟨a, rfl⟩
  | _ => exact noIdx h rfl

theorem Instr.inv_I8x16Shuffle {j : Instr} (h : j.ctorIdx = 70) : ∃ a, j = .I8x16Shuffle a := by
  cases j with
  | I8x16Shuffle a => exact ⟨a, rfl⟩
  | _ => exact noIdx h rfl

end Wadec
