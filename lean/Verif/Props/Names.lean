import Verif.Spec.Names
import Verif.Model.CliDebug
import Verif.Proof.DebugStr

/-! C70: debug texts name variants and fields.  `Names`, `name_of%`, `parts_of%`, `labels_of%`, `type_name%`: Verif/Spec/Names. -/

namespace Wadec

open Spec

/-- `Instruction` (`Instr.dbg`) -/
local instance : Debug Instr := ⟨Instr.dbg⟩

/-- only so that `parts_of%` makes sense for every constructor of `Instr` -/
local instance : Debug PlainOp := ⟨fun _ op => .word op.text⟩
/-- as above -/
local instance : Debug MemOp := ⟨fun _ op => .word op.text⟩
/-- as above -/
local instance : Debug MemLaneOp := ⟨fun _ op => .word op.text⟩
/-- as above -/
local instance : Debug LaneOp := ⟨fun _ op => .word op.text⟩

theorem instrs_eq (t : StdText) : ∀ is, instrsDbg t is = is.map (dbg t)
  | [] => rfl
  | i :: is => by unfold instrsDbg; rw [instrs_eq t is]; rfl

theorem instrsOpt_eq (t : StdText) (o : Option (List Instr)) : instrsOptDbg t o = dbg t o := by
  cases o with
  | none => rfl
  | some is => unfold instrsOptDbg; rw [instrs_eq]; rfl

theorem exprs_eq (t : StdText) (es : List Expr) : es.map (fun e => Dbg.list (instrsDbg t e)) = es.map (dbg t) := by
  refine List.map_congr_left fun e _ => ?_
  rw [instrs_eq]; rfl

macro "names" : tactic => `(tactic| first
  | exact ⟨rfl, rfl⟩
  | exact ⟨rfl, rfl, rfl⟩
  | exact fun h => absurd rfl h
  | exact fun _ => ⟨rfl, rfl⟩
  | exact fun _ => ⟨rfl, rfl, rfl⟩
  | (refine ⟨rfl, ?_⟩; simp only [instrs_eq, instrsOpt_eq]; rfl)
  | (refine ⟨rfl, ?_, rfl⟩; simp only [exprs_eq]; rfl)
  | (refine ⟨rfl, ?_, rfl⟩; simp only [instrs_eq, instrsOpt_eq]; rfl))

/-- C70: the types of the abstract syntax. -/
theorem c70_core (t : StdText) :
    (∀ x : TypeIdx, Names (dbg t x) (name_of% x) (parts_of% t x) (labels_of% x)) ∧
    (∀ x : FuncIdx, Names (dbg t x) (name_of% x) (parts_of% t x) (labels_of% x)) ∧
    (∀ x : TableIdx, Names (dbg t x) (name_of% x) (parts_of% t x) (labels_of% x)) ∧
    (∀ x : MemIdx, Names (dbg t x) (name_of% x) (parts_of% t x) (labels_of% x)) ∧
    (∀ x : GlobalIdx, Names (dbg t x) (name_of% x) (parts_of% t x) (labels_of% x)) ∧
    (∀ x : ElemIdx, Names (dbg t x) (name_of% x) (parts_of% t x) (labels_of% x)) ∧
    (∀ x : DataIdx, Names (dbg t x) (name_of% x) (parts_of% t x) (labels_of% x)) ∧
    (∀ x : LocalIdx, Names (dbg t x) (name_of% x) (parts_of% t x) (labels_of% x)) ∧
    (∀ x : LabelIdx, Names (dbg t x) (name_of% x) (parts_of% t x) (labels_of% x)) ∧
    (∀ x : TagIdx, Names (dbg t x) (name_of% x) (parts_of% t x) (labels_of% x)) ∧
    (∀ x : AddrType, Names (dbg t x) (name_of% x) (parts_of% t x) (labels_of% x)) ∧
    (∀ x : NumType, Names (dbg t x) (name_of% x) (parts_of% t x) (labels_of% x)) ∧
    (∀ x : VecType, Names (dbg t x) (name_of% x) (parts_of% t x) (labels_of% x)) ∧
    (∀ x : AbsHeapType, Names (dbg t x) (name_of% x) (parts_of% t x) (labels_of% x)) ∧
    (∀ x : HeapType, Names (dbg t x) (name_of% x) (parts_of% t x) (labels_of% x)) ∧
    (∀ x : RefType, Names (dbg t x) (name_of% x) (parts_of% t x) (labels_of% x)) ∧
    (∀ x : ValType, Names (dbg t x) (name_of% x) (parts_of% t x) (labels_of% x)) ∧
    (∀ x : Mut, Names (dbg t x) (name_of% x) (parts_of% t x) (labels_of% x)) ∧
    (∀ x : GlobalType, Names (dbg t x) (name_of% x) (parts_of% t x) (labels_of% x)) ∧
    (∀ x : PackType, Names (dbg t x) (name_of% x) (parts_of% t x) (labels_of% x)) ∧
    (∀ x : StorageType, Names (dbg t x) (name_of% x) (parts_of% t x) (labels_of% x)) ∧
    (∀ x : FieldType, Names (dbg t x) (name_of% x) (parts_of% t x) (labels_of% x)) ∧
    (∀ x : CompType, Names (dbg t x) (name_of% x) (parts_of% t x) (labels_of% x)) ∧
    (∀ x : SubType, Names (dbg t x) (name_of% x) (parts_of% t x) (labels_of% x)) ∧
    (∀ x : RecType, Names (dbg t x) (name_of% x) (parts_of% t x) (labels_of% x)) ∧
    (∀ x : Limits, Names (dbg t x) (name_of% x) (parts_of% t x) (labels_of% x)) ∧
    (∀ x : MemType, Names (dbg t x) (name_of% x) (parts_of% t x) (labels_of% x)) ∧
    (∀ x : TableType, Names (dbg t x) (name_of% x) (parts_of% t x) (labels_of% x)) ∧
    (∀ x : TagType, Names (dbg t x) (name_of% x) (parts_of% t x) (labels_of% x)) ∧
    (∀ x : ExternType, Names (dbg t x) (name_of% x) (parts_of% t x) (labels_of% x)) ∧
    (∀ x : Memarg, Names (dbg t x) (name_of% x) (parts_of% t x) (labels_of% x)) ∧
    (∀ x : LaneIdx, Names (dbg t x) (name_of% x) (parts_of% t x) (labels_of% x)) ∧
    (∀ x : BlockType, Names (dbg t x) (name_of% x) (parts_of% t x) (labels_of% x)) ∧
    (∀ x : Catch, Names (dbg t x) (name_of% x) (parts_of% t x) (labels_of% x)) ∧
    (∀ x : Import, Names (dbg t x) (name_of% x) (parts_of% t x) (labels_of% x)) ∧
    (∀ x : ExternIdx, Names (dbg t x) (name_of% x) (parts_of% t x) (labels_of% x)) ∧
    (∀ x : Export, Names (dbg t x) (name_of% x) (parts_of% t x) (labels_of% x)) ∧
    (∀ x : SectionKind, Names (dbg t x) (name_of% x) (parts_of% t x) (labels_of% x)) ∧
    (∀ x : SectionHeader, Names (dbg t x) (name_of% x) (parts_of% t x) (labels_of% x)) ∧
    (∀ x : CustomSection, Names (dbg t x) (name_of% x) (parts_of% t x) (labels_of% x)) ∧
    (∀ x : Func, Names (dbg t x) (name_of% x) (parts_of% t x) (labels_of% x)) ∧
    (∀ x : Global, Names (dbg t x) (name_of% x) (parts_of% t x) (labels_of% x)) ∧
    (∀ x : DataMode, Names (dbg t x) (name_of% x) (parts_of% t x) (labels_of% x)) ∧
    (∀ x : Data, Names (dbg t x) (name_of% x) (parts_of% t x) (labels_of% x)) ∧
    (∀ x : ElemMode, Names (dbg t x) (name_of% x) (parts_of% t x) (labels_of% x)) ∧
    (∀ x : Elem, Names (dbg t x) (name_of% x) (parts_of% t x) (labels_of% x)) ∧
    (∀ x : Table, Names (dbg t x) (name_of% x) (parts_of% t x) (labels_of% x)) ∧
    (∀ x : Module, Names (dbg t x) (name_of% x) (parts_of% t x) (labels_of% x)) := by
  refine ⟨?_, ?_, ?_, ?_, ?_, ?_, ?_, ?_, ?_, ?_, ?_, ?_, ?_, ?_, ?_, ?_, ?_, ?_, ?_, ?_, ?_, ?_, ?_, ?_, ?_, ?_, ?_, ?_, ?_, ?_, ?_, ?_, ?_, ?_, ?_, ?_, ?_, ?_, ?_, ?_, ?_, ?_, ?_, ?_, ?_, ?_, ?_, ?_⟩ <;> intro x <;> cases x <;> names

/-- C70: the error types. -/
theorem c70_errors (t : StdText) :
    (∀ x : DecodeU32Error, Names (dbg t x) (name_of% x) (parts_of% t x) (labels_of% x)) ∧
    (∀ x : DecodeU64Error, Names (dbg t x) (name_of% x) (parts_of% t x) (labels_of% x)) ∧
    (∀ x : DecodeI32Error, Names (dbg t x) (name_of% x) (parts_of% t x) (labels_of% x)) ∧
    (∀ x : DecodeI64Error, Names (dbg t x) (name_of% x) (parts_of% t x) (labels_of% x)) ∧
    (∀ x : DecodeS33Error, Names (dbg t x) (name_of% x) (parts_of% t x) (labels_of% x)) ∧
    (∀ x : DecodeLabelIdxError, Names (dbg t x) (name_of% x) (parts_of% t x) (labels_of% x)) ∧
    (∀ x : DecodeFuncIdxError, Names (dbg t x) (name_of% x) (parts_of% t x) (labels_of% x)) ∧
    (∀ x : DecodeTableIdxError, Names (dbg t x) (name_of% x) (parts_of% t x) (labels_of% x)) ∧
    (∀ x : DecodeTypeIdxError, Names (dbg t x) (name_of% x) (parts_of% t x) (labels_of% x)) ∧
    (∀ x : DecodeTagIdxError, Names (dbg t x) (name_of% x) (parts_of% t x) (labels_of% x)) ∧
    (∀ x : CatchError, Names (dbg t x) (name_of% x) (parts_of% t x) (labels_of% x)) ∧
    (∀ x : BlockTypeError, Names (dbg t x) (name_of% x) (parts_of% t x) (labels_of% x)) ∧
    (∀ x : DecodeHeapTypeError, Names (dbg t x) (name_of% x) (parts_of% t x) (labels_of% x)) ∧
    (∀ x : ControlError, Names (dbg t x) (name_of% x) (parts_of% t x) (labels_of% x)) ∧
    (∀ x : ReferenceError, Names (dbg t x) (name_of% x) (parts_of% t x) (labels_of% x)) ∧
    (∀ x : DecodeDataIdxError, Names (dbg t x) (name_of% x) (parts_of% t x) (labels_of% x)) ∧
    (∀ x : DecodeElemIdxError, Names (dbg t x) (name_of% x) (parts_of% t x) (labels_of% x)) ∧
    (∀ x : AggregateError, Names (dbg t x) (name_of% x) (parts_of% t x) (labels_of% x)) ∧
    (∀ x : InvalidAbsHeapTypeMarkerError, Names (dbg t x) (name_of% x) (parts_of% t x) (labels_of% x)) ∧
    (∀ x : DecodeAbsHeapTypeError, Names (dbg t x) (name_of% x) (parts_of% t x) (labels_of% x)) ∧
    (∀ x : DecodeRefTypeError, Names (dbg t x) (name_of% x) (parts_of% t x) (labels_of% x)) ∧
    (∀ x : DecodeValTypeError, Names (dbg t x) (name_of% x) (parts_of% t x) (labels_of% x)) ∧
    (∀ x : ParametricError, Names (dbg t x) (name_of% x) (parts_of% t x) (labels_of% x)) ∧
    (∀ x : DecodeLocalIdxError, Names (dbg t x) (name_of% x) (parts_of% t x) (labels_of% x)) ∧
    (∀ x : DecodeGlobalIdxError, Names (dbg t x) (name_of% x) (parts_of% t x) (labels_of% x)) ∧
    (∀ x : VariableError, Names (dbg t x) (name_of% x) (parts_of% t x) (labels_of% x)) ∧
    (∀ x : TableError, Names (dbg t x) (name_of% x) (parts_of% t x) (labels_of% x)) ∧
    (∀ x : DecodeMemIdxError, Names (dbg t x) (name_of% x) (parts_of% t x) (labels_of% x)) ∧
    (∀ x : MemargError, Names (dbg t x) (name_of% x) (parts_of% t x) (labels_of% x)) ∧
    (∀ x : MemoryError, Names (dbg t x) (name_of% x) (parts_of% t x) (labels_of% x)) ∧
    (∀ x : DecodeFloat32Error, Names (dbg t x) (name_of% x) (parts_of% t x) (labels_of% x)) ∧
    (∀ x : DecodeFloat64Error, Names (dbg t x) (name_of% x) (parts_of% t x) (labels_of% x)) ∧
    (∀ x : NumericError, Names (dbg t x) (name_of% x) (parts_of% t x) (labels_of% x)) ∧
    (∀ x : LaneIdxError, Names (dbg t x) (name_of% x) (parts_of% t x) (labels_of% x)) ∧
    (∀ x : VectorError, Names (dbg t x) (name_of% x) (parts_of% t x) (labels_of% x)) ∧
    (∀ x : ParseError, Names (dbg t x) (name_of% x) (parts_of% t x) (labels_of% x)) ∧
    (∀ x : ParseExpressionError, Names (dbg t x) (name_of% x) (parts_of% t x) (labels_of% x)) ∧
    (∀ x : DecodeByteVectorError, Names (dbg t x) (name_of% x) (parts_of% t x) (labels_of% x)) ∧
    (∀ x : DecodeNameError, Names (dbg t x) (name_of% x) (parts_of% t x) (labels_of% x)) ∧
    (∀ x : DecodeStorageTypeError, Names (dbg t x) (name_of% x) (parts_of% t x) (labels_of% x)) ∧
    (∀ x : InvalidMutabilityByteError, Names (dbg t x) (name_of% x) (parts_of% t x) (labels_of% x)) ∧
    (∀ x : DecodeFieldTypeError, Names (dbg t x) (name_of% x) (parts_of% t x) (labels_of% x)) ∧
    (∀ x : DecodeResultTypeError, Names (dbg t x) (name_of% x) (parts_of% t x) (labels_of% x)) ∧
    (∀ x : DecodeCompTypeError, Names (dbg t x) (name_of% x) (parts_of% t x) (labels_of% x)) ∧
    (∀ x : InvalidPackTypeMarkerError, Names (dbg t x) (name_of% x) (parts_of% t x) (labels_of% x)) ∧
    (∀ x : ParseLimitsError, Names (dbg t x) (name_of% x) (parts_of% t x) (labels_of% x)) ∧
    (∀ x : DecodeTableTypeError, Names (dbg t x) (name_of% x) (parts_of% t x) (labels_of% x)) ∧
    (∀ x : DecodeMemoryTypeError, Names (dbg t x) (name_of% x) (parts_of% t x) (labels_of% x)) ∧
    (∀ x : DecodeGlobalTypeError, Names (dbg t x) (name_of% x) (parts_of% t x) (labels_of% x)) ∧
    (∀ x : DecodeTagTypeError, Names (dbg t x) (name_of% x) (parts_of% t x) (labels_of% x)) ∧
    (∀ x : DecodeExternTypeError, Names (dbg t x) (name_of% x) (parts_of% t x) (labels_of% x)) ∧
    (∀ x : DecodeSubTypeError, Names (dbg t x) (name_of% x) (parts_of% t x) (labels_of% x)) ∧
    (∀ x : DecodeRecTypeError, Names (dbg t x) (name_of% x) (parts_of% t x) (labels_of% x)) ∧
    (∀ x : DecodeCodeLocalsError, Names (dbg t x) (name_of% x) (parts_of% t x) (labels_of% x)) ∧
    (∀ x : DecodeCodeError, Names (dbg t x) (name_of% x) (parts_of% t x) (labels_of% x)) ∧
    (∀ x : DecodeCodeSectionError, Names (dbg t x) (name_of% x) (parts_of% t x) (labels_of% x)) ∧
    (∀ x : DecodeCustomSectionError, Names (dbg t x) (name_of% x) (parts_of% t x) (labels_of% x)) ∧
    (∀ x : DecodeDataSegmentError, Names (dbg t x) (name_of% x) (parts_of% t x) (labels_of% x)) ∧
    (∀ x : DecodeDataSectionError, Names (dbg t x) (name_of% x) (parts_of% t x) (labels_of% x)) ∧
    (∀ x : DecodeDataCountSectionError, Names (dbg t x) (name_of% x) (parts_of% t x) (labels_of% x)) ∧
    (∀ x : DecodeElementKindError, Names (dbg t x) (name_of% x) (parts_of% t x) (labels_of% x)) ∧
    (∀ x : DecodeElementError, Names (dbg t x) (name_of% x) (parts_of% t x) (labels_of% x)) ∧
    (∀ x : DecodeElementSectionError, Names (dbg t x) (name_of% x) (parts_of% t x) (labels_of% x)) ∧
    (∀ x : InvalidExportDescMarkerByte, Names (dbg t x) (name_of% x) (parts_of% t x) (labels_of% x)) ∧
    (∀ x : DecodeExportError, Names (dbg t x) (name_of% x) (parts_of% t x) (labels_of% x)) ∧
    (∀ x : DecodeExportSectionError, Names (dbg t x) (name_of% x) (parts_of% t x) (labels_of% x)) ∧
    (∀ x : DecodeFunctionSectionError, Names (dbg t x) (name_of% x) (parts_of% t x) (labels_of% x)) ∧
    (∀ x : DecodeGlobalError, Names (dbg t x) (name_of% x) (parts_of% t x) (labels_of% x)) ∧
    (∀ x : DecodeGlobalSectionError, Names (dbg t x) (name_of% x) (parts_of% t x) (labels_of% x)) ∧
    (∀ x : DecodeImportError, Names (dbg t x) (name_of% x) (parts_of% t x) (labels_of% x)) ∧
    (∀ x : DecodeImportSectionError, Names (dbg t x) (name_of% x) (parts_of% t x) (labels_of% x)) ∧
    (∀ x : DecodeMemorySectionError, Names (dbg t x) (name_of% x) (parts_of% t x) (labels_of% x)) ∧
    (∀ x : DecodeStartSectionError, Names (dbg t x) (name_of% x) (parts_of% t x) (labels_of% x)) ∧
    (∀ x : DecodeTableError, Names (dbg t x) (name_of% x) (parts_of% t x) (labels_of% x)) ∧
    (∀ x : DecodeTableSectionError, Names (dbg t x) (name_of% x) (parts_of% t x) (labels_of% x)) ∧
    (∀ x : DecodeTagSectionError, Names (dbg t x) (name_of% x) (parts_of% t x) (labels_of% x)) ∧
    (∀ x : DecodeTypeSectionError, Names (dbg t x) (name_of% x) (parts_of% t x) (labels_of% x)) ∧
    (∀ x : InvalidSectionIdError, Names (dbg t x) (name_of% x) (parts_of% t x) (labels_of% x)) ∧
    (∀ x : ParsePreambleError, Names (dbg t x) (name_of% x) (parts_of% t x) (labels_of% x)) ∧
    (∀ x : DecodeSectionHeaderError, Names (dbg t x) (name_of% x) (parts_of% t x) (labels_of% x)) ∧
    (∀ x : DecodeModuleError, x ≠ .DecodeDataCount → Names (dbg t x) (name_of% x) (parts_of% t x) (labels_of% x)) := by
  refine ⟨?_, ?_, ?_, ?_, ?_, ?_, ?_, ?_, ?_, ?_, ?_, ?_, ?_, ?_, ?_, ?_, ?_, ?_, ?_, ?_, ?_, ?_, ?_, ?_, ?_, ?_, ?_, ?_, ?_, ?_, ?_, ?_, ?_, ?_, ?_, ?_, ?_, ?_, ?_, ?_, ?_, ?_, ?_, ?_, ?_, ?_, ?_, ?_, ?_, ?_, ?_, ?_, ?_, ?_, ?_, ?_, ?_, ?_, ?_, ?_, ?_, ?_, ?_, ?_, ?_, ?_, ?_, ?_, ?_, ?_, ?_, ?_, ?_, ?_, ?_, ?_, ?_, ?_, ?_, ?_, ?_⟩ <;> intro x <;> cases x <;> names

/-- C70: errors of lists; the error of an element is written behind the name of its type. -/
theorem c70_list {E : Type} [Debug E] [TypeName E] (t : StdText) :
    (∀ e, Names (dbg t (DecodeListError.DecodeLength (E := E) e)) "DecodeLength" [dbg t e] []) ∧
    (∀ i (e : E), Names (dbg t (DecodeListError.ParseElement i e)) "ParseElement" [dbg t i, .path (typeName E) (dbg t e)]
      ["position", "source"]) :=
  ⟨fun _ => ⟨rfl, rfl⟩, fun _ _ => ⟨rfl, rfl, rfl⟩⟩

/-- C70: the names of these types. -/
theorem c70_types : typeName DecodeLabelIdxError = type_name% DecodeLabelIdxError ∧
    typeName DecodeFuncIdxError = type_name% DecodeFuncIdxError ∧
    typeName DecodeTypeIdxError = type_name% DecodeTypeIdxError ∧
    typeName CatchError = type_name% CatchError ∧
    typeName DecodeValTypeError = type_name% DecodeValTypeError ∧
    typeName ParseExpressionError = type_name% ParseExpressionError ∧
    typeName DecodeFieldTypeError = type_name% DecodeFieldTypeError ∧
    typeName DecodeMemoryTypeError = type_name% DecodeMemoryTypeError ∧
    typeName DecodeTagTypeError = type_name% DecodeTagTypeError ∧
    typeName DecodeSubTypeError = type_name% DecodeSubTypeError ∧
    typeName DecodeRecTypeError = type_name% DecodeRecTypeError ∧
    typeName DecodeCodeLocalsError = type_name% DecodeCodeLocalsError ∧
    typeName DecodeCodeError = type_name% DecodeCodeError ∧
    typeName DecodeDataSegmentError = type_name% DecodeDataSegmentError ∧
    typeName DecodeElementError = type_name% DecodeElementError ∧
    typeName DecodeExportError = type_name% DecodeExportError ∧
    typeName DecodeGlobalError = type_name% DecodeGlobalError ∧
    typeName DecodeImportError = type_name% DecodeImportError ∧
    typeName DecodeTableError = type_name% DecodeTableError :=
  ⟨rfl, rfl, rfl, rfl, rfl, rfl, rfl, rfl, rfl, rfl, rfl, rfl, rfl, rfl, rfl, rfl, rfl, rfl, rfl⟩

/-- C70: names that are not UTF-8. -/
theorem c70_utf8 (t : StdText) (e : FromUtf8Error) : ∃ d, dbg t e = .struct "FromUtf8Error" [("bytes", dbg t e.bytes), ("error", d)] ∧
    Names d "Utf8Error" [dbg t e.valid_up_to, dbg t e.error_len] ["valid_up_to", "error_len"] :=
  ⟨_, rfl, rfl, rfl, rfl⟩

/-- C70: instructions without immediates and with a memory argument or a lane: the name of the operation. -/
theorem c70_operations (t : StdText) :
    (∀ op, Names (dbg t (Instr.plain op)) (name_of% op) [] []) ∧
    (∀ op m, Names (dbg t (Instr.mem op m)) (name_of% op) [dbg t m] []) ∧
    (∀ op m l, Names (dbg t (Instr.memLane op m l)) (name_of% op) [dbg t m, dbg t l] []) ∧
    (∀ op l, Names (dbg t (Instr.lane op l)) (name_of% op) [dbg t l] []) := by
  refine ⟨?_, ?_, ?_, ?_⟩ <;> intro op <;> cases op <;> intros <;> exact ⟨rfl, rfl⟩

/-- C70: all other instructions but constants and shuffles. -/
theorem c70_instructions (t : StdText) (i : Instr) (h : match i with
      | .plain _ | .mem _ _ | .memLane _ _ _ | .lane _ _ | .F32Const _ | .F64Const _ | .I8x16Shuffle _ => False
      | _ => True) :
    Names (dbg t i) (name_of% i) (parts_of% t i) [] := by
  cases i <;> first | exact False.elim h | names

/-- C70: floating-point constants and shuffles: the text of the number, the sixteen lanes. -/
theorem c70_constants (t : StdText) :
    (∀ x, Names (dbg t (Instr.F32Const x)) "F32Const" [.word (t.f32 x)] []) ∧
    (∀ x, Names (dbg t (Instr.F64Const x)) "F64Const" [.word (t.f64 x)] []) ∧
    (∀ x, Names (dbg t (Instr.I8x16Shuffle x)) "I8x16Shuffle" [.list (x.val.map fun l => .tuple "LaneIdx" [dbg t l])] []) :=
  ⟨fun _ => ⟨rfl, rfl⟩, fun _ => ⟨rfl, rfl⟩, fun x => ⟨rfl, by
    show [Dbg.list ((x.val.map LaneIdx.mk).map (dbg t))] = _
    rw [List.map_map]; rfl⟩⟩

theorem numeral_toDigits {b : Nat} (h1 : 1 < b) (hb : b ≤ 16) (n : Nat) : Numeral b n (Nat.toDigits b n) := by
  have hd : ∀ d, d < b → "0123456789abcdef".toList[d]? = some d.digitChar := by
    intro d hd
    have : ∀ d < 16, "0123456789abcdef".toList[d]? = some d.digitChar := by decide
    exact this d (by omega)
  induction n using Nat.strongRecOn with
  | _ n ih =>
    by_cases h : n < b
    · rw [Nat.toDigits_of_lt_base h]
      exact .digit h (hd n h)
    · have hp : 0 < n / b := Nat.div_pos (by omega) (by omega)
      rw [Nat.toDigits_of_base_le h1 (by omega)]
      have hm : n % b < b := Nat.mod_lt _ (by omega)
      have := Numeral.more hp (ih _ (Nat.div_lt_self (by omega) h1)) hm (hd _ hm)
      rwa [Nat.mul_comm, Nat.div_add_mod] at this

/-- C70: a name is written between quotes, character by character: the special characters as their escapes, the hidden ones by their
number, any other as itself. -/
theorem c70_strings (t : StdText) (cs : List Char) : ∃ f : Char → List Char,
    dbg t (⟨cs.flatMap utf8Char⟩ : Str) = .str (String.ofList (cs.flatMap f)) ∧ ∀ c, Escapes t.hidden c (f c) := by
  refine ⟨escapeChar t.hidden, by simp only [dbg, utf8Chars_chars], fun c => ?_⟩
  unfold escapeChar
  split
  · subst c; exact .nul
  split
  · subst c; exact .tab
  split
  · subst c; exact .cr
  split
  · subst c; exact .lf
  split
  · subst c; exact .backslash
  split
  · subst c; exact .quote
  rename_i h0 h1 h2 h3 h4 h5
  have hc : c ∉ ['\x00', '\t', '\r', '\n', '\\', '"'] := by simp [h0, h1, h2, h3, h4, h5]
  split
  · rename_i h6
    have := Escapes.number hc h6 (numeral_toDigits (by decide) (by decide) c.toNat)
    exact this
  · rename_i h6
    exact .plain hc (by simpa using h6)

theorem writes_nat (n : Nat) : WritesNat (.word (toString n)) n :=
  ⟨_, rfl, by
    have := numeral_toDigits (b := 10) (by decide) (by decide) n
    simpa [toString, Nat.repr] using this⟩

theorem writes_int (n : Int) : WritesInt (.word (toString n)) n := by
  refine ⟨_, Nat.toDigits 10 n.natAbs, rfl, ?_, numeral_toDigits (by decide) (by decide) _⟩
  cases n with
  | ofNat m => simp [toString, Int.repr, Nat.repr]
  | negSucc m =>
    have : Int.negSucc m < 0 := Int.negSucc_lt_zero m
    simp [toString, Int.repr, Nat.repr, this]

/-- C70: the values within: numbers in decimal, flags, options, lists in their order and the sixteen bytes of a vector constant. -/
theorem c70_values (t : StdText) :
    (∀ n : UInt8, WritesNat (dbg t n) n.toNat) ∧ (∀ n : UInt32, WritesNat (dbg t n) n.toNat) ∧
    (∀ n : UInt64, WritesNat (dbg t n) n.toNat) ∧ (∀ n : Nat, WritesNat (dbg t n) n) ∧
    (∀ n : Int32, WritesInt (dbg t n) n.toInt) ∧ (∀ n : Int64, WritesInt (dbg t n) n.toInt) ∧
    dbg t true = .word "true" ∧ dbg t false = .word "false" ∧ (∀ v : Bytes16, dbg t v = dbg t v.val) :=
  ⟨fun _ => writes_nat _, fun _ => writes_nat _, fun _ => writes_nat _, fun _ => writes_nat _, fun _ => writes_int _,
    fun _ => writes_int _, rfl, rfl, fun _ => rfl⟩

/-- C70: options and lists, for any type of elements. -/
theorem c70_containers {α : Type} [Debug α] (t : StdText) :
    Names (dbg t (none : Option α)) "None" [] [] ∧ (∀ x : α, Names (dbg t (some x)) "Some" [dbg t x] []) ∧
    (∀ xs : List α, dbg t xs = .list (xs.map (dbg t))) :=
  ⟨⟨rfl, rfl⟩, fun _ => ⟨rfl, rfl⟩, fun _ => rfl⟩

example : Numeral 10 255 "255".toList := numeral_toDigits (by decide) (by decide) 255
example : Escapes (fun _ => true) '\x1b' "\\u{1b}".toList :=
  Escapes.number (c := '\x1b') (ds := ['1', 'b']) (by decide) rfl (numeral_toDigits (b := 16) (by decide) (by decide) 27)
/-- It is not just any text. -/
example : ¬ Numeral 10 0 "00".toList := by
  intro h
  have : ∀ {n cs}, Numeral 10 n cs → cs = "00".toList → n ≠ 0 := by
    intro n cs h e
    cases h with
    | digit _ _ => simp at e
    | more hp _ _ _ => omega
  exact this h rfl rfl

/-- What the elaborators produce. -/
example (c : CompType) : name_of% (SubType.mk true [] c) = "SubType" := rfl
example (k : SectionKind) : labels_of% (DecodeModuleError.SectionSizeMismatch k 3 4) = ["section_kind", "declared", "got"] := rfl
example (t : StdText) : Names (dbg t (Instr.BrTable [⟨1⟩] ⟨0⟩)) "BrTable"
    [.list [.tuple "LabelIdx" [.word "1"]], .tuple "LabelIdx" [.word "0"]] [] := c70_instructions t _ trivial
example (t : StdText) : Names (dbg t (DecodeModuleError.DuplicateSection .Type)) "DuplicateSection" [.word "Type"] [] :=
  ⟨rfl, rfl⟩

end Wadec
