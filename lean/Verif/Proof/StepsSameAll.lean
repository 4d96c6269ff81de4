import Verif.Proof.StepsSame

/-! The decoders that count steps decode the same. -/

namespace Wadec.Counted

variable {R : Type} {ε ε' α β σ : Type} [Read R]

macro "same" : tactic => `(tactic| repeat' (first | same1 | (dsimp only; same1) | (split <;> first | (rename_i heq; simp only [heq]; done) | (rename_i heq; simp only [heq]; same1) | skip)))

theorem same_decodeU32Loop : ∀ n a b c, Agrees (R := R) (decodeU32Loop n a b c) (Wadec.decodeU32Loop n a b c)
  | 0, _, _, _ => Agrees.step Agrees.err
  | n + 1, a, b, c => by
    have ih := same_decodeU32Loop n
    unfold decodeU32Loop Wadec.decodeU32Loop
    same
    all_goals exact ih _ _ _

theorem same_decodeU32 : Agrees (R := R) (decodeU32) (Wadec.decodeU32) := by
  unfold decodeU32 Wadec.decodeU32
  same
  exact same_decodeU32Loop _ _ _ _
instance : Agr (R := R) (decodeU32) (Wadec.decodeU32) := ⟨same_decodeU32⟩

theorem same_decodeU64Loop : ∀ n a b c, Agrees (R := R) (decodeU64Loop n a b c) (Wadec.decodeU64Loop n a b c)
  | 0, _, _, _ => Agrees.step Agrees.err
  | n + 1, a, b, c => by
    have ih := same_decodeU64Loop n
    unfold decodeU64Loop Wadec.decodeU64Loop
    same
    all_goals exact ih _ _ _

theorem same_decodeU64 : Agrees (R := R) (decodeU64) (Wadec.decodeU64) := by
  unfold decodeU64 Wadec.decodeU64
  same
  exact same_decodeU64Loop _ _ _ _
instance : Agr (R := R) (decodeU64) (Wadec.decodeU64) := ⟨same_decodeU64⟩

theorem same_decodeI32Loop : ∀ n a b, Agrees (R := R) (decodeI32Loop n a b) (Wadec.decodeI32Loop n a b)
  | 0, _, _ => Agrees.step Agrees.err
  | n + 1, a, b => by
    have ih := same_decodeI32Loop n
    unfold decodeI32Loop Wadec.decodeI32Loop
    same
    all_goals exact ih _ _

theorem same_decodeI32 : Agrees (R := R) (decodeI32) (Wadec.decodeI32) := by
  unfold decodeI32 Wadec.decodeI32
  same
  exact same_decodeI32Loop _ _ _
instance : Agr (R := R) (decodeI32) (Wadec.decodeI32) := ⟨same_decodeI32⟩

theorem same_decodeI64Loop : ∀ n a b, Agrees (R := R) (decodeI64Loop n a b) (Wadec.decodeI64Loop n a b)
  | 0, _, _ => Agrees.step Agrees.err
  | n + 1, a, b => by
    have ih := same_decodeI64Loop n
    unfold decodeI64Loop Wadec.decodeI64Loop
    same
    all_goals exact ih _ _

theorem same_decodeI64 : Agrees (R := R) (decodeI64) (Wadec.decodeI64) := by
  unfold decodeI64 Wadec.decodeI64
  same
  exact same_decodeI64Loop _ _ _
instance : Agr (R := R) (decodeI64) (Wadec.decodeI64) := ⟨same_decodeI64⟩

theorem same_decodeS33Loop : ∀ n a b, Agrees (R := R) (decodeS33Loop n a b) (Wadec.decodeS33Loop n a b)
  | 0, _, _ => Agrees.step Agrees.err
  | n + 1, a, b => by
    have ih := same_decodeS33Loop n
    unfold decodeS33Loop Wadec.decodeS33Loop
    same
    all_goals exact ih _ _

theorem same_decodeS33 : Agrees (R := R) (decodeS33) (Wadec.decodeS33) := by
  unfold decodeS33 Wadec.decodeS33
  same
  exact same_decodeS33Loop _ _ _
instance : Agr (R := R) (decodeS33) (Wadec.decodeS33) := ⟨same_decodeS33⟩

theorem same_TypeIdx_decode : Agrees (R := R) (TypeIdx.decode) (Wadec.TypeIdx.decode) := by
  unfold TypeIdx.decode Wadec.TypeIdx.decode
  same
instance : Agr (R := R) (TypeIdx.decode) (Wadec.TypeIdx.decode) := ⟨same_TypeIdx_decode⟩

theorem same_FuncIdx_decode : Agrees (R := R) (FuncIdx.decode) (Wadec.FuncIdx.decode) := by
  unfold FuncIdx.decode Wadec.FuncIdx.decode
  same
instance : Agr (R := R) (FuncIdx.decode) (Wadec.FuncIdx.decode) := ⟨same_FuncIdx_decode⟩

theorem same_TableIdx_decode : Agrees (R := R) (TableIdx.decode) (Wadec.TableIdx.decode) := by
  unfold TableIdx.decode Wadec.TableIdx.decode
  same
instance : Agr (R := R) (TableIdx.decode) (Wadec.TableIdx.decode) := ⟨same_TableIdx_decode⟩

theorem same_MemIdx_decode : Agrees (R := R) (MemIdx.decode) (Wadec.MemIdx.decode) := by
  unfold MemIdx.decode Wadec.MemIdx.decode
  same
instance : Agr (R := R) (MemIdx.decode) (Wadec.MemIdx.decode) := ⟨same_MemIdx_decode⟩

theorem same_GlobalIdx_decode : Agrees (R := R) (GlobalIdx.decode) (Wadec.GlobalIdx.decode) := by
  unfold GlobalIdx.decode Wadec.GlobalIdx.decode
  same
instance : Agr (R := R) (GlobalIdx.decode) (Wadec.GlobalIdx.decode) := ⟨same_GlobalIdx_decode⟩

theorem same_ElemIdx_decode : Agrees (R := R) (ElemIdx.decode) (Wadec.ElemIdx.decode) := by
  unfold ElemIdx.decode Wadec.ElemIdx.decode
  same
instance : Agr (R := R) (ElemIdx.decode) (Wadec.ElemIdx.decode) := ⟨same_ElemIdx_decode⟩

theorem same_DataIdx_decode : Agrees (R := R) (DataIdx.decode) (Wadec.DataIdx.decode) := by
  unfold DataIdx.decode Wadec.DataIdx.decode
  same
instance : Agr (R := R) (DataIdx.decode) (Wadec.DataIdx.decode) := ⟨same_DataIdx_decode⟩

theorem same_LocalIdx_decode : Agrees (R := R) (LocalIdx.decode) (Wadec.LocalIdx.decode) := by
  unfold LocalIdx.decode Wadec.LocalIdx.decode
  same
instance : Agr (R := R) (LocalIdx.decode) (Wadec.LocalIdx.decode) := ⟨same_LocalIdx_decode⟩

theorem same_LabelIdx_decode : Agrees (R := R) (LabelIdx.decode) (Wadec.LabelIdx.decode) := by
  unfold LabelIdx.decode Wadec.LabelIdx.decode
  same
instance : Agr (R := R) (LabelIdx.decode) (Wadec.LabelIdx.decode) := ⟨same_LabelIdx_decode⟩

theorem same_TagIdx_decode : Agrees (R := R) (TagIdx.decode) (Wadec.TagIdx.decode) := by
  unfold TagIdx.decode Wadec.TagIdx.decode
  same
instance : Agr (R := R) (TagIdx.decode) (Wadec.TagIdx.decode) := ⟨same_TagIdx_decode⟩

theorem same_decodeF32 : Agrees (R := R) (decodeF32) (Wadec.decodeF32) := by
  unfold decodeF32 Wadec.decodeF32
  same
instance : Agr (R := R) (decodeF32) (Wadec.decodeF32) := ⟨same_decodeF32⟩

theorem same_decodeF64 : Agrees (R := R) (decodeF64) (Wadec.decodeF64) := by
  unfold decodeF64 Wadec.decodeF64
  same
instance : Agr (R := R) (decodeF64) (Wadec.decodeF64) := ⟨same_decodeF64⟩

theorem same_listLoop {f : σ → Dec R ε (α × σ)} {g : σ → Wadec.Dec R ε (α × σ)} (h : ∀ st, Agrees (f st) (g st)) :
    ∀ n i st items, Agrees (decodeListLoop f n i st items) (Wadec.decodeListLoop g n i st items)
  | 0, _, _, _ => Agrees.step Agrees.pure
  | n + 1, i, st, items => Agrees.step (Agrees.bind (Agrees.mapErr (h st)) fun ⟨_, _⟩ => same_listLoop h n _ _ _)

theorem same_listS {f : σ → Dec R ε (α × σ)} {g : σ → Wadec.Dec R ε (α × σ)} (h : ∀ st, Agrees (f st) (g st)) (st : σ) :
    Agrees (decodeListS f st) (Wadec.decodeListS g st) :=
  Agrees.step (Agrees.bind (Agrees.mapErr Agr.agrees) fun _ => Agrees.bind Agrees.reserve fun _ => same_listLoop h _ _ _ _)

theorem same_list {f : Dec R ε α} {g : Wadec.Dec R ε α} (h : Agrees f g) :
    Agrees (decodeList f) (Wadec.decodeList g) :=
  Agrees.step (Agrees.bind (same_listS (fun _ => Agrees.bind h fun _ => Agrees.pure) _) fun ⟨_, _⟩ => Agrees.pure)
instance {f : Dec R ε α} {g : Wadec.Dec R ε α} [h : Agr f g] : Agr (decodeList f) (Wadec.decodeList g) := ⟨same_list h.agrees⟩

theorem same_decodeByteVector : Agrees (R := R) (decodeByteVector) (Wadec.decodeByteVector) := by
  unfold decodeByteVector Wadec.decodeByteVector
  same
instance : Agr (R := R) (decodeByteVector) (Wadec.decodeByteVector) := ⟨same_decodeByteVector⟩

theorem same_decodeName : Agrees (R := R) (decodeName) (Wadec.decodeName) := by
  unfold decodeName Wadec.decodeName
  same
instance : Agr (R := R) (decodeName) (Wadec.decodeName) := ⟨same_decodeName⟩

theorem same_i64ToU32 (x : Int64) : Agrees (R := R) (ε := ε) (i64ToU32 x) (Wadec.i64ToU32 x) := by
  unfold i64ToU32 Wadec.i64ToU32
  same
instance (x : Int64) : Agr (R := R) (ε := ε) (i64ToU32 x) (Wadec.i64ToU32 x) := ⟨same_i64ToU32 x⟩

theorem same_HeapType_decode : Agrees (R := R) (HeapType.decode) (Wadec.HeapType.decode) := by
  unfold HeapType.decode Wadec.HeapType.decode
  same
instance : Agr (R := R) (HeapType.decode) (Wadec.HeapType.decode) := ⟨same_HeapType_decode⟩

theorem same_AbsHeapType_decode : Agrees (R := R) (AbsHeapType.decode) (Wadec.AbsHeapType.decode) := by
  unfold AbsHeapType.decode Wadec.AbsHeapType.decode
  same
instance : Agr (R := R) (AbsHeapType.decode) (Wadec.AbsHeapType.decode) := ⟨same_AbsHeapType_decode⟩

theorem same_RefType_decode : Agrees (R := R) (RefType.decode) (Wadec.RefType.decode) := by
  unfold RefType.decode Wadec.RefType.decode
  same
instance : Agr (R := R) (RefType.decode) (Wadec.RefType.decode) := ⟨same_RefType_decode⟩

theorem same_ValType_decode : Agrees (R := R) (ValType.decode) (Wadec.ValType.decode) := by
  unfold ValType.decode Wadec.ValType.decode
  same
instance : Agr (R := R) (ValType.decode) (Wadec.ValType.decode) := ⟨same_ValType_decode⟩

theorem same_decodeResultType : Agrees (R := R) (decodeResultType) (Wadec.decodeResultType) := by
  unfold decodeResultType Wadec.decodeResultType
  same
instance : Agr (R := R) (decodeResultType) (Wadec.decodeResultType) := ⟨same_decodeResultType⟩

theorem same_GlobalType_decode : Agrees (R := R) (GlobalType.decode) (Wadec.GlobalType.decode) := by
  unfold GlobalType.decode Wadec.GlobalType.decode
  same
instance : Agr (R := R) (GlobalType.decode) (Wadec.GlobalType.decode) := ⟨same_GlobalType_decode⟩

theorem same_decodeStorageType : Agrees (R := R) (decodeStorageType) (Wadec.decodeStorageType) := by
  unfold decodeStorageType Wadec.decodeStorageType
  same
instance : Agr (R := R) (decodeStorageType) (Wadec.decodeStorageType) := ⟨same_decodeStorageType⟩

theorem same_decodeFieldType : Agrees (R := R) (decodeFieldType) (Wadec.decodeFieldType) := by
  unfold decodeFieldType Wadec.decodeFieldType
  same
instance : Agr (R := R) (decodeFieldType) (Wadec.decodeFieldType) := ⟨same_decodeFieldType⟩

theorem same_CompType_decode : Agrees (R := R) (CompType.decode) (Wadec.CompType.decode) := by
  unfold CompType.decode Wadec.CompType.decode
  same
instance : Agr (R := R) (CompType.decode) (Wadec.CompType.decode) := ⟨same_CompType_decode⟩

theorem same_SubType_decode : Agrees (R := R) (SubType.decode) (Wadec.SubType.decode) := by
  unfold SubType.decode Wadec.SubType.decode
  same
instance : Agr (R := R) (SubType.decode) (Wadec.SubType.decode) := ⟨same_SubType_decode⟩

theorem same_RecType_decode : Agrees (R := R) (RecType.decode) (Wadec.RecType.decode) := by
  unfold RecType.decode Wadec.RecType.decode
  same
instance : Agr (R := R) (RecType.decode) (Wadec.RecType.decode) := ⟨same_RecType_decode⟩

theorem same_parseLimitsRest (has_max : Bool) (address_type : AddrType) : Agrees (R := R) (parseLimitsRest has_max address_type) (Wadec.parseLimitsRest has_max address_type) := by
  unfold parseLimitsRest Wadec.parseLimitsRest
  same
instance (has_max : Bool) (address_type : AddrType) : Agr (R := R) (parseLimitsRest has_max address_type) (Wadec.parseLimitsRest has_max address_type) := ⟨same_parseLimitsRest has_max address_type⟩

theorem same_parseLimits : Agrees (R := R) (parseLimits) (Wadec.parseLimits) := by
  unfold parseLimits Wadec.parseLimits
  same
instance : Agr (R := R) (parseLimits) (Wadec.parseLimits) := ⟨same_parseLimits⟩

theorem same_parseMemType : Agrees (R := R) (parseMemType) (Wadec.parseMemType) := by
  unfold parseMemType Wadec.parseMemType
  same
instance : Agr (R := R) (parseMemType) (Wadec.parseMemType) := ⟨same_parseMemType⟩

theorem same_TableType_decode : Agrees (R := R) (TableType.decode) (Wadec.TableType.decode) := by
  unfold TableType.decode Wadec.TableType.decode
  same
instance : Agr (R := R) (TableType.decode) (Wadec.TableType.decode) := ⟨same_TableType_decode⟩

theorem same_TagType_decode : Agrees (R := R) (TagType.decode) (Wadec.TagType.decode) := by
  unfold TagType.decode Wadec.TagType.decode
  same
instance : Agr (R := R) (TagType.decode) (Wadec.TagType.decode) := ⟨same_TagType_decode⟩

theorem same_ExternType_decode : Agrees (R := R) (ExternType.decode) (Wadec.ExternType.decode) := by
  unfold ExternType.decode Wadec.ExternType.decode
  same
instance : Agr (R := R) (ExternType.decode) (Wadec.ExternType.decode) := ⟨same_ExternType_decode⟩

theorem same_Memarg_decode : Agrees (R := R) (Memarg.decode) (Wadec.Memarg.decode) := by
  unfold Memarg.decode Wadec.Memarg.decode
  same
instance : Agr (R := R) (Memarg.decode) (Wadec.Memarg.decode) := ⟨same_Memarg_decode⟩

theorem same_LaneIdx_decode : Agrees (R := R) (LaneIdx.decode) (Wadec.LaneIdx.decode) := by
  unfold LaneIdx.decode Wadec.LaneIdx.decode
  same
instance : Agr (R := R) (LaneIdx.decode) (Wadec.LaneIdx.decode) := ⟨same_LaneIdx_decode⟩

theorem same_blockTypeIndex : Agrees (R := R) (blockTypeIndex) (Wadec.blockTypeIndex) := by
  unfold blockTypeIndex Wadec.blockTypeIndex
  same
instance : Agr (R := R) (blockTypeIndex) (Wadec.blockTypeIndex) := ⟨same_blockTypeIndex⟩

theorem same_BlockType_decode : Agrees (R := R) (BlockType.decode) (Wadec.BlockType.decode) := by
  unfold BlockType.decode Wadec.BlockType.decode
  same
instance : Agr (R := R) (BlockType.decode) (Wadec.BlockType.decode) := ⟨same_BlockType_decode⟩

theorem same_Catch_decode : Agrees (R := R) (Catch.decode) (Wadec.Catch.decode) := by
  unfold Catch.decode Wadec.Catch.decode
  same
instance : Agr (R := R) (Catch.decode) (Wadec.Catch.decode) := ⟨same_Catch_decode⟩

theorem same_decodeCastop : Agrees (R := R) (decodeCastop) (Wadec.decodeCastop) := by
  unfold decodeCastop Wadec.decodeCastop
  same
instance : Agr (R := R) (decodeCastop) (Wadec.decodeCastop) := ⟨same_decodeCastop⟩

theorem same_aggType : Agrees (R := R) (aggType) (Wadec.aggType) := by
  unfold aggType Wadec.aggType
  same
instance : Agr (R := R) (aggType) (Wadec.aggType) := ⟨same_aggType⟩

theorem same_aggField : Agrees (R := R) (aggField) (Wadec.aggField) := by
  unfold aggField Wadec.aggField
  same
instance : Agr (R := R) (aggField) (Wadec.aggField) := ⟨same_aggField⟩

theorem same_aggLen : Agrees (R := R) (aggLen) (Wadec.aggLen) := by
  unfold aggLen Wadec.aggLen
  same
instance : Agr (R := R) (aggLen) (Wadec.aggLen) := ⟨same_aggLen⟩

theorem same_aggData : Agrees (R := R) (aggData) (Wadec.aggData) := by
  unfold aggData Wadec.aggData
  same
instance : Agr (R := R) (aggData) (Wadec.aggData) := ⟨same_aggData⟩

theorem same_aggElem : Agrees (R := R) (aggElem) (Wadec.aggElem) := by
  unfold aggElem Wadec.aggElem
  same
instance : Agr (R := R) (aggElem) (Wadec.aggElem) := ⟨same_aggElem⟩

theorem same_refHeap : Agrees (R := R) (refHeap) (Wadec.refHeap) := by
  unfold refHeap Wadec.refHeap
  same
instance : Agr (R := R) (refHeap) (Wadec.refHeap) := ⟨same_refHeap⟩

theorem same_ctlHeap : Agrees (R := R) (ctlHeap) (Wadec.ctlHeap) := by
  unfold ctlHeap Wadec.ctlHeap
  same
instance : Agr (R := R) (ctlHeap) (Wadec.ctlHeap) := ⟨same_ctlHeap⟩

theorem same_ctlLabel : Agrees (R := R) (ctlLabel) (Wadec.ctlLabel) := by
  unfold ctlLabel Wadec.ctlLabel
  same
instance : Agr (R := R) (ctlLabel) (Wadec.ctlLabel) := ⟨same_ctlLabel⟩

theorem same_ctlFunc : Agrees (R := R) (ctlFunc) (Wadec.ctlFunc) := by
  unfold ctlFunc Wadec.ctlFunc
  same
instance : Agr (R := R) (ctlFunc) (Wadec.ctlFunc) := ⟨same_ctlFunc⟩

theorem same_ctlType : Agrees (R := R) (ctlType) (Wadec.ctlType) := by
  unfold ctlType Wadec.ctlType
  same
instance : Agr (R := R) (ctlType) (Wadec.ctlType) := ⟨same_ctlType⟩

theorem same_ctlTable : Agrees (R := R) (ctlTable) (Wadec.ctlTable) := by
  unfold ctlTable Wadec.ctlTable
  same
instance : Agr (R := R) (ctlTable) (Wadec.ctlTable) := ⟨same_ctlTable⟩

theorem same_tabTable : Agrees (R := R) (tabTable) (Wadec.tabTable) := by
  unfold tabTable Wadec.tabTable
  same
instance : Agr (R := R) (tabTable) (Wadec.tabTable) := ⟨same_tabTable⟩

theorem same_tabElem : Agrees (R := R) (tabElem) (Wadec.tabElem) := by
  unfold tabElem Wadec.tabElem
  same
instance : Agr (R := R) (tabElem) (Wadec.tabElem) := ⟨same_tabElem⟩

theorem same_memMem : Agrees (R := R) (memMem) (Wadec.memMem) := by
  unfold memMem Wadec.memMem
  same
instance : Agr (R := R) (memMem) (Wadec.memMem) := ⟨same_memMem⟩

theorem same_memData : Agrees (R := R) (memData) (Wadec.memData) := by
  unfold memData Wadec.memData
  same
instance : Agr (R := R) (memData) (Wadec.memData) := ⟨same_memData⟩

theorem same_varLocal : Agrees (R := R) (varLocal) (Wadec.varLocal) := by
  unfold varLocal Wadec.varLocal
  same
instance : Agr (R := R) (varLocal) (Wadec.varLocal) := ⟨same_varLocal⟩

theorem same_varGlobal : Agrees (R := R) (varGlobal) (Wadec.varGlobal) := by
  unfold varGlobal Wadec.varGlobal
  same
instance : Agr (R := R) (varGlobal) (Wadec.varGlobal) := ⟨same_varGlobal⟩

theorem same_vecMemarg : Agrees (R := R) (vecMemarg) (Wadec.vecMemarg) := by
  unfold vecMemarg Wadec.vecMemarg
  same
instance : Agr (R := R) (vecMemarg) (Wadec.vecMemarg) := ⟨same_vecMemarg⟩

theorem same_vecLane : Agrees (R := R) (vecLane) (Wadec.vecLane) := by
  unfold vecLane Wadec.vecLane
  same
instance : Agr (R := R) (vecLane) (Wadec.vecLane) := ⟨same_vecLane⟩

theorem same_vecBytes : Agrees (R := R) (vecBytes) (Wadec.vecBytes) := by
  unfold vecBytes Wadec.vecBytes
  refine Agrees.step (Agrees.bind (Agrees.mapErr Agr.agrees) fun buf => ?_)
  by_cases h : buf.length = 16
  · rw [dif_pos h, dif_pos h]; exact Agrees.pure
  · rw [dif_neg h, dif_neg h]; exact Agrees.panic
instance : Agr (R := R) (vecBytes) (Wadec.vecBytes) := ⟨same_vecBytes⟩

theorem same_parseFB (op : UInt32) : Agrees (R := R) (parseFB op) (Wadec.parseFB op) := by
  unfold parseFB Wadec.parseFB
  same
instance (op : UInt32) : Agr (R := R) (parseFB op) (Wadec.parseFB op) := ⟨same_parseFB op⟩

theorem same_parseFC (op : UInt32) : Agrees (R := R) (parseFC op) (Wadec.parseFC op) := by
  unfold parseFC Wadec.parseFC
  same
instance (op : UInt32) : Agr (R := R) (parseFC op) (Wadec.parseFC op) := ⟨same_parseFC op⟩

theorem same_parseFD (op : UInt32) : Agrees (R := R) (parseFD op) (Wadec.parseFD op) := by
  unfold parseFD Wadec.parseFD
  same
instance (op : UInt32) : Agr (R := R) (parseFD op) (Wadec.parseFD op) := ⟨same_parseFD op⟩

theorem same_parseSimple (op : UInt8) : Agrees (R := R) (parseSimple op) (Wadec.parseSimple op) := by
  unfold parseSimple Wadec.parseSimple
  same
instance (op : UInt8) : Agr (R := R) (parseSimple op) (Wadec.parseSimple op) := ⟨same_parseSimple op⟩

theorem same_parseSeq {p : Dec R ParseError ParseResult} {q : Wadec.Dec R ParseError ParseResult} (h : Agrees p q) :
    ∀ n b acc, Agrees (parseSeq p n b acc) (Wadec.parseSeq q n b acc)
  | 0, _, _ => Agrees.step Agrees.fuel
  | n + 1, b, acc => by
    unfold parseSeq Wadec.parseSeq
    refine Agrees.step (Agrees.bind h fun x => ?_)
    cases x
    · exact same_parseSeq h n _ _
    · dsimp only; same
    · exact Agrees.pure

theorem same_parse : ∀ n, Agrees (R := R) (parse n) (Wadec.parse n)
  | 0 => Agrees.step Agrees.fuel
  | n + 1 => by
    have ih := same_parseSeq (same_parse n)
    unfold parse Wadec.parse
    refine Agrees.step (Agrees.bind (Agrees.mapErr Agr.agrees) fun op => ?_)
    match op with
    | [] => exact Agrees.panic
    | _ :: _ :: _ => exact Agrees.panic
    | [op] =>
      dsimp only
      refine Agrees.ite (fun _ => Agrees.pure) fun _ => Agrees.ite (fun _ => Agrees.pure) fun _ => Agrees.ite (fun _ => ?_) fun _ => ?_
      · refine Agrees.bind (Agrees.mapErr Agr.agrees) fun bt => Agrees.bind (ih _ _ _) fun ⟨in1, parsed⟩ => ?_
        dsimp only
        refine Agrees.ite (fun _ => Agrees.pure) fun _ => Agrees.ite (fun _ => Agrees.pure) fun _ => Agrees.ite (fun _ => ?_)
          fun _ => Agrees.panic
        cases parsed
        · exact Agrees.panic
        · exact Agrees.bind (ih _ _ _) fun ⟨_, _⟩ => Agrees.pure
        · exact Agrees.pure
      · refine Agrees.ite (fun _ => ?_) fun _ => Agrees.bind Agr.agrees fun _ => Agrees.pure
        exact Agrees.bind (Agrees.mapErr Agr.agrees) fun _ => Agrees.bind (Agrees.mapErr Agr.agrees) fun _ =>
          Agrees.bind (ih _ _ _) fun ⟨_, _⟩ => Agrees.pure

theorem same_exprLoop {p : Dec R ParseError ParseResult} {q : Wadec.Dec R ParseError ParseResult} (h : Agrees p q) :
    ∀ n b e, Agrees (decodeExprLoop p n b e) (Wadec.decodeExprLoop q n b e)
  | 0, _, _ => Agrees.step Agrees.fuel
  | n + 1, b, e => by
    unfold decodeExprLoop Wadec.decodeExprLoop
    refine Agrees.step (Agrees.bind (Agrees.mapErr h) fun x => ?_)
    cases x
    · exact Agrees.charge (same_exprLoop h n _ _)
    · exact Agrees.err
    · exact Agrees.pure

theorem same_decodeExpr : Agrees (R := R) (decodeExpr) (Wadec.decodeExpr) :=
  Agrees.step fun r => same_exprLoop (same_parse _) _ _ _ r
instance : Agr (R := R) (decodeExpr) (Wadec.decodeExpr) := ⟨same_decodeExpr⟩

theorem same_parseCodeLocal (expanded_locals : UInt64) : Agrees (R := R) (parseCodeLocal expanded_locals) (Wadec.parseCodeLocal expanded_locals) := by
  unfold parseCodeLocal Wadec.parseCodeLocal
  same
instance (expanded_locals : UInt64) : Agr (R := R) (parseCodeLocal expanded_locals) (Wadec.parseCodeLocal expanded_locals) := ⟨same_parseCodeLocal expanded_locals⟩

theorem same_parseCodeBody : Agrees (R := R) (parseCodeBody) (Wadec.parseCodeBody) := by
  unfold parseCodeBody Wadec.parseCodeBody
  refine Agrees.step (Agrees.bind (Agrees.mapErr (same_listS (fun st => Agr.agrees) 0)) fun _ => ?_)
  same
instance : Agr (R := R) (parseCodeBody) (Wadec.parseCodeBody) := ⟨same_parseCodeBody⟩

theorem same_parseCode : Agrees (R := R) (parseCode) (Wadec.parseCode) := by
  unfold parseCode Wadec.parseCode
  same
instance : Agr (R := R) (parseCode) (Wadec.parseCode) := ⟨same_parseCode⟩

theorem same_decodeCodeSection : Agrees (R := R) (decodeCodeSection) (Wadec.decodeCodeSection) := by
  unfold decodeCodeSection Wadec.decodeCodeSection
  same
instance : Agr (R := R) (decodeCodeSection) (Wadec.decodeCodeSection) := ⟨same_decodeCodeSection⟩

theorem same_decodeSectionCustom : Agrees (R := R) (decodeSectionCustom) (Wadec.decodeSectionCustom) := by
  unfold decodeSectionCustom Wadec.decodeSectionCustom
  same
instance : Agr (R := R) (decodeSectionCustom) (Wadec.decodeSectionCustom) := ⟨same_decodeSectionCustom⟩

theorem same_decodeExpr' : Agrees (R := R) (decodeExpr') (Wadec.decodeExpr') := by
  unfold decodeExpr' Wadec.decodeExpr'
  same
instance : Agr (R := R) (decodeExpr') (Wadec.decodeExpr') := ⟨same_decodeExpr'⟩

theorem same_parseData : Agrees (R := R) (parseData) (Wadec.parseData) := by
  unfold parseData Wadec.parseData
  same
instance : Agr (R := R) (parseData) (Wadec.parseData) := ⟨same_parseData⟩

theorem same_decodeDataSection : Agrees (R := R) (decodeDataSection) (Wadec.decodeDataSection) := by
  unfold decodeDataSection Wadec.decodeDataSection
  same
instance : Agr (R := R) (decodeDataSection) (Wadec.decodeDataSection) := ⟨same_decodeDataSection⟩

theorem same_decodeDatacountSection : Agrees (R := R) (decodeDatacountSection) (Wadec.decodeDatacountSection) := by
  unfold decodeDatacountSection Wadec.decodeDatacountSection
  same
instance : Agr (R := R) (decodeDatacountSection) (Wadec.decodeDatacountSection) := ⟨same_decodeDatacountSection⟩

theorem same_parseElemKind : Agrees (R := R) (parseElemKind) (Wadec.parseElemKind) := by
  unfold parseElemKind Wadec.parseElemKind
  same
instance : Agr (R := R) (parseElemKind) (Wadec.parseElemKind) := ⟨same_parseElemKind⟩

theorem same_elemFuncs : Agrees (R := R) (elemFuncs) (Wadec.elemFuncs) := by
  unfold elemFuncs Wadec.elemFuncs
  same
instance : Agr (R := R) (elemFuncs) (Wadec.elemFuncs) := ⟨same_elemFuncs⟩

theorem same_elemExprs : Agrees (R := R) (elemExprs) (Wadec.elemExprs) := by
  unfold elemExprs Wadec.elemExprs
  same
instance : Agr (R := R) (elemExprs) (Wadec.elemExprs) := ⟨same_elemExprs⟩

theorem same_parseElem : Agrees (R := R) (parseElem) (Wadec.parseElem) := by
  unfold parseElem Wadec.parseElem
  same
instance : Agr (R := R) (parseElem) (Wadec.parseElem) := ⟨same_parseElem⟩

theorem same_decodeElementSection : Agrees (R := R) (decodeElementSection) (Wadec.decodeElementSection) := by
  unfold decodeElementSection Wadec.decodeElementSection
  same
instance : Agr (R := R) (decodeElementSection) (Wadec.decodeElementSection) := ⟨same_decodeElementSection⟩

theorem same_ExternIdx_from (b : UInt8) (idx : UInt32) : Agrees (R := R) (ExternIdx.from b idx) (Wadec.ExternIdx.from b idx) := by
  unfold ExternIdx.from Wadec.ExternIdx.from
  same
instance (b : UInt8) (idx : UInt32) : Agr (R := R) (ExternIdx.from b idx) (Wadec.ExternIdx.from b idx) := ⟨same_ExternIdx_from b idx⟩

theorem same_parseExport : Agrees (R := R) (parseExport) (Wadec.parseExport) := by
  unfold parseExport Wadec.parseExport
  same
instance : Agr (R := R) (parseExport) (Wadec.parseExport) := ⟨same_parseExport⟩

theorem same_decodeExportSection : Agrees (R := R) (decodeExportSection) (Wadec.decodeExportSection) := by
  unfold decodeExportSection Wadec.decodeExportSection
  same
instance : Agr (R := R) (decodeExportSection) (Wadec.decodeExportSection) := ⟨same_decodeExportSection⟩

theorem same_decodeFunctionSection : Agrees (R := R) (decodeFunctionSection) (Wadec.decodeFunctionSection) := by
  unfold decodeFunctionSection Wadec.decodeFunctionSection
  same
instance : Agr (R := R) (decodeFunctionSection) (Wadec.decodeFunctionSection) := ⟨same_decodeFunctionSection⟩

theorem same_decodeStartSection : Agrees (R := R) (decodeStartSection) (Wadec.decodeStartSection) := by
  unfold decodeStartSection Wadec.decodeStartSection
  same
instance : Agr (R := R) (decodeStartSection) (Wadec.decodeStartSection) := ⟨same_decodeStartSection⟩

theorem same_decodeTagSection : Agrees (R := R) (decodeTagSection) (Wadec.decodeTagSection) := by
  unfold decodeTagSection Wadec.decodeTagSection
  same
instance : Agr (R := R) (decodeTagSection) (Wadec.decodeTagSection) := ⟨same_decodeTagSection⟩

theorem same_decodeTypeSection : Agrees (R := R) (decodeTypeSection) (Wadec.decodeTypeSection) := by
  unfold decodeTypeSection Wadec.decodeTypeSection
  same
instance : Agr (R := R) (decodeTypeSection) (Wadec.decodeTypeSection) := ⟨same_decodeTypeSection⟩

theorem same_decodeMemorySection : Agrees (R := R) (decodeMemorySection) (Wadec.decodeMemorySection) := by
  unfold decodeMemorySection Wadec.decodeMemorySection
  same
instance : Agr (R := R) (decodeMemorySection) (Wadec.decodeMemorySection) := ⟨same_decodeMemorySection⟩

theorem same_parseGlobal : Agrees (R := R) (parseGlobal) (Wadec.parseGlobal) := by
  unfold parseGlobal Wadec.parseGlobal
  same
instance : Agr (R := R) (parseGlobal) (Wadec.parseGlobal) := ⟨same_parseGlobal⟩

theorem same_decodeGlobalSection : Agrees (R := R) (decodeGlobalSection) (Wadec.decodeGlobalSection) := by
  unfold decodeGlobalSection Wadec.decodeGlobalSection
  same
instance : Agr (R := R) (decodeGlobalSection) (Wadec.decodeGlobalSection) := ⟨same_decodeGlobalSection⟩

theorem same_parseImport : Agrees (R := R) (parseImport) (Wadec.parseImport) := by
  unfold parseImport Wadec.parseImport
  same
instance : Agr (R := R) (parseImport) (Wadec.parseImport) := ⟨same_parseImport⟩

theorem same_decodeImportSection : Agrees (R := R) (decodeImportSection) (Wadec.decodeImportSection) := by
  unfold decodeImportSection Wadec.decodeImportSection
  same
instance : Agr (R := R) (decodeImportSection) (Wadec.decodeImportSection) := ⟨same_decodeImportSection⟩

theorem same_decodeTable : Agrees (R := R) (decodeTable) (Wadec.decodeTable) := by
  unfold decodeTable Wadec.decodeTable
  same
instance : Agr (R := R) (decodeTable) (Wadec.decodeTable) := ⟨same_decodeTable⟩

theorem same_decodeTableSection : Agrees (R := R) (decodeTableSection) (Wadec.decodeTableSection) := by
  unfold decodeTableSection Wadec.decodeTableSection
  same
instance : Agr (R := R) (decodeTableSection) (Wadec.decodeTableSection) := ⟨same_decodeTableSection⟩

theorem same_Module_validateSectionKindExpected (self : Module) (current : SectionKind) : Agrees (R := R) (Module.validateSectionKindExpected self current) (Wadec.Module.validateSectionKindExpected self current) := by
  unfold Module.validateSectionKindExpected Wadec.Module.validateSectionKindExpected
  same
instance (self : Module) (current : SectionKind) : Agr (R := R) (Module.validateSectionKindExpected self current) (Wadec.Module.validateSectionKindExpected self current) := ⟨same_Module_validateSectionKindExpected self current⟩

theorem same_parsePreamble : Agrees (R := R) (parsePreamble) (Wadec.parsePreamble) := by
  unfold parsePreamble Wadec.parsePreamble
  same
instance : Agr (R := R) (parsePreamble) (Wadec.parsePreamble) := ⟨same_parsePreamble⟩

theorem same_sectionHeaderRest (id : UInt8) : Agrees (R := R) (sectionHeaderRest id) (Wadec.sectionHeaderRest id) := by
  unfold sectionHeaderRest Wadec.sectionHeaderRest
  same
instance (id : UInt8) : Agr (R := R) (sectionHeaderRest id) (Wadec.sectionHeaderRest id) := ⟨same_sectionHeaderRest id⟩

theorem same_decodeSectionHeader : Agrees (R := R) (decodeSectionHeader) (Wadec.decodeSectionHeader) := by
  unfold decodeSectionHeader Wadec.decodeSectionHeader
  refine Agrees.step fun r => ?_
  have := same_readByte r
  rw [← this]
  rcases readByte r with ⟨⟨res, r'⟩, n⟩
  cases res <;> try rfl
  · exact same_sectionHeaderRest _ _
  · rename_i e
    show (if e = IoError.unexpectedEof then (((Res.ok none, r'), n) : (Res _ _ × R) × Nat)
      else ((Res.err (DecodeSectionHeaderError.ReadSectionIdByte e), r'), n)).1 = _
    by_cases he : e = IoError.unexpectedEof
    · rw [if_pos he]; simp only [he, if_true]
    · rw [if_neg he]; simp only [he, if_false]
instance : Agr (R := R) (decodeSectionHeader) (Wadec.decodeSectionHeader) := ⟨same_decodeSectionHeader⟩

theorem same_fillFuncs (push : Nat) : ∀ codes i funcs enc,
    Agrees (R := R) (fillFuncs push codes i funcs enc) (Wadec.fillFuncs codes i funcs enc)
  | [], _, _, _ => Agrees.step Agrees.pure
  | code :: codes, i, funcs, enc => by
    unfold fillFuncs Wadec.fillFuncs
    refine Agrees.step ?_
    cases funcs[i]? with
    | none => exact Agrees.panic
    | some f => exact Agrees.charge (same_fillFuncs push codes _ _ _)

theorem same_decodeSectionBody (push : Nat) (kind : SectionKind) (st : LoopState) : Agrees (R := R) (decodeSectionBody push kind st) (Wadec.decodeSectionBody kind st) := by
  unfold decodeSectionBody Wadec.decodeSectionBody
  same
  exact same_fillFuncs push _ _ _ _
instance (push : Nat) (kind : SectionKind) (st : LoopState) : Agr (R := R) (decodeSectionBody push kind st) (Wadec.decodeSectionBody kind st) := ⟨same_decodeSectionBody push kind st⟩

theorem same_decodeSection (push : Nat) (h : SectionHeader) (st : LoopState) : Agrees (R := R) (decodeSection push h st) (Wadec.decodeSection h st) := by
  unfold decodeSection Wadec.decodeSection
  same
instance (push : Nat) (h : SectionHeader) (st : LoopState) : Agr (R := R) (decodeSection push h st) (Wadec.decodeSection h st) := ⟨same_decodeSection push h st⟩

theorem same_sectionLoop (push : Nat) : ∀ n st, Agrees (R := R) (sectionLoop push n st) (Wadec.sectionLoop n st)
  | 0, _ => Agrees.step Agrees.fuel
  | n + 1, st => by
    unfold sectionLoop Wadec.sectionLoop
    refine Agrees.step (Agrees.bind (Agrees.mapErr Agr.agrees) fun h => ?_)
    cases h
    · exact Agrees.pure
    · exact Agrees.bind Agr.agrees fun _ => same_sectionLoop push n _

theorem same_finalChecks (st : LoopState) : Agrees (R := R) (finalChecks st) (Wadec.finalChecks st) := by
  unfold finalChecks Wadec.finalChecks
  same
instance (st : LoopState) : Agr (R := R) (finalChecks st) (Wadec.finalChecks st) := ⟨same_finalChecks st⟩

theorem same_decodeModule (push : Nat) : Agrees (R := R) (decodeModule push) (Wadec.decodeModule) :=
  Agrees.step fun r => Agrees.bind (Agrees.mapErr same_parsePreamble)
    (fun _ => Agrees.bind (same_sectionLoop push _ _) fun _ => same_finalChecks _) r
instance (push : Nat) : Agr (R := R) (decodeModule push) (Wadec.decodeModule) := ⟨same_decodeModule push⟩

end Wadec.Counted
