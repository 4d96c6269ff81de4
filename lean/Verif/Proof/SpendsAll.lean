import Verif.Proof.Spends

/-! The decoders that count steps decode the spends. -/

namespace Wadec.Counted

variable {R : Type} {ε ε' α β σ : Type} [Drains R]

macro "spends" : tactic => `(tactic| repeat' (first | spend1 | (dsimp only; spend1) | split))

theorem sp_decodeU32Loop : ∀ n a b c, Spends (R := R) (decodeU32Loop n a b c)
  | 0, _, _, _ => Spends.step Spends.err
  | n + 1, a, b, c => by
    have ih := sp_decodeU32Loop n
    unfold decodeU32Loop
    spends
    all_goals exact ih _ _ _

theorem sp_decodeU32 : Spends (R := R) (decodeU32) := by
  unfold decodeU32
  spends
  exact sp_decodeU32Loop _ _ _ _
instance : Spd (R := R) (decodeU32) := ⟨sp_decodeU32⟩

theorem sp_decodeU64Loop : ∀ n a b c, Spends (R := R) (decodeU64Loop n a b c)
  | 0, _, _, _ => Spends.step Spends.err
  | n + 1, a, b, c => by
    have ih := sp_decodeU64Loop n
    unfold decodeU64Loop
    spends
    all_goals exact ih _ _ _

theorem sp_decodeU64 : Spends (R := R) (decodeU64) := by
  unfold decodeU64
  spends
  exact sp_decodeU64Loop _ _ _ _
instance : Spd (R := R) (decodeU64) := ⟨sp_decodeU64⟩

theorem sp_decodeI32Loop : ∀ n a b, Spends (R := R) (decodeI32Loop n a b)
  | 0, _, _ => Spends.step Spends.err
  | n + 1, a, b => by
    have ih := sp_decodeI32Loop n
    unfold decodeI32Loop
    spends
    all_goals exact ih _ _

theorem sp_decodeI32 : Spends (R := R) (decodeI32) := by
  unfold decodeI32
  spends
  exact sp_decodeI32Loop _ _ _
instance : Spd (R := R) (decodeI32) := ⟨sp_decodeI32⟩

theorem sp_decodeI64Loop : ∀ n a b, Spends (R := R) (decodeI64Loop n a b)
  | 0, _, _ => Spends.step Spends.err
  | n + 1, a, b => by
    have ih := sp_decodeI64Loop n
    unfold decodeI64Loop
    spends
    all_goals exact ih _ _

theorem sp_decodeI64 : Spends (R := R) (decodeI64) := by
  unfold decodeI64
  spends
  exact sp_decodeI64Loop _ _ _
instance : Spd (R := R) (decodeI64) := ⟨sp_decodeI64⟩

theorem sp_decodeS33Loop : ∀ n a b, Spends (R := R) (decodeS33Loop n a b)
  | 0, _, _ => Spends.step Spends.err
  | n + 1, a, b => by
    have ih := sp_decodeS33Loop n
    unfold decodeS33Loop
    spends
    all_goals exact ih _ _

theorem sp_decodeS33 : Spends (R := R) (decodeS33) := by
  unfold decodeS33
  spends
  exact sp_decodeS33Loop _ _ _
instance : Spd (R := R) (decodeS33) := ⟨sp_decodeS33⟩

theorem sp_TypeIdx_decode : Spends (R := R) (TypeIdx.decode) := by
  unfold TypeIdx.decode
  spends
instance : Spd (R := R) (TypeIdx.decode) := ⟨sp_TypeIdx_decode⟩

theorem sp_FuncIdx_decode : Spends (R := R) (FuncIdx.decode) := by
  unfold FuncIdx.decode
  spends
instance : Spd (R := R) (FuncIdx.decode) := ⟨sp_FuncIdx_decode⟩

theorem sp_TableIdx_decode : Spends (R := R) (TableIdx.decode) := by
  unfold TableIdx.decode
  spends
instance : Spd (R := R) (TableIdx.decode) := ⟨sp_TableIdx_decode⟩

theorem sp_MemIdx_decode : Spends (R := R) (MemIdx.decode) := by
  unfold MemIdx.decode
  spends
instance : Spd (R := R) (MemIdx.decode) := ⟨sp_MemIdx_decode⟩

theorem sp_GlobalIdx_decode : Spends (R := R) (GlobalIdx.decode) := by
  unfold GlobalIdx.decode
  spends
instance : Spd (R := R) (GlobalIdx.decode) := ⟨sp_GlobalIdx_decode⟩

theorem sp_ElemIdx_decode : Spends (R := R) (ElemIdx.decode) := by
  unfold ElemIdx.decode
  spends
instance : Spd (R := R) (ElemIdx.decode) := ⟨sp_ElemIdx_decode⟩

theorem sp_DataIdx_decode : Spends (R := R) (DataIdx.decode) := by
  unfold DataIdx.decode
  spends
instance : Spd (R := R) (DataIdx.decode) := ⟨sp_DataIdx_decode⟩

theorem sp_LocalIdx_decode : Spends (R := R) (LocalIdx.decode) := by
  unfold LocalIdx.decode
  spends
instance : Spd (R := R) (LocalIdx.decode) := ⟨sp_LocalIdx_decode⟩

theorem sp_LabelIdx_decode : Spends (R := R) (LabelIdx.decode) := by
  unfold LabelIdx.decode
  spends
instance : Spd (R := R) (LabelIdx.decode) := ⟨sp_LabelIdx_decode⟩

theorem sp_TagIdx_decode : Spends (R := R) (TagIdx.decode) := by
  unfold TagIdx.decode
  spends
instance : Spd (R := R) (TagIdx.decode) := ⟨sp_TagIdx_decode⟩

theorem sp_decodeF32 : Spends (R := R) (decodeF32) := by
  unfold decodeF32
  spends
instance : Spd (R := R) (decodeF32) := ⟨sp_decodeF32⟩

theorem sp_decodeF64 : Spends (R := R) (decodeF64) := by
  unfold decodeF64
  spends
instance : Spd (R := R) (decodeF64) := ⟨sp_decodeF64⟩

theorem sp_listLoop {f : σ → Dec R ε (α × σ)} (h : ∀ st, Spends (f st)) :
    ∀ n i st items, Spends (decodeListLoop f n i st items)
  | 0, _, _, _ => Spends.step Spends.pure
  | n + 1, i, st, items => Spends.step (Spends.bind (Spends.mapErr (h st)) fun ⟨_, _⟩ => sp_listLoop h n _ _ _)

theorem sp_listS {f : σ → Dec R ε (α × σ)} (h : ∀ st, Spends (f st)) (st : σ) :
    Spends (decodeListS f st) :=
  Spends.step (Spends.bind (Spends.mapErr Spd.spends) fun _ => Spends.bind Spends.reserve fun _ => sp_listLoop h _ _ _ _)

theorem sp_list {f : Dec R ε α} (h : Spends f) :
    Spends (decodeList f) :=
  Spends.step (Spends.bind (sp_listS (fun _ => Spends.bind h fun _ => Spends.pure) _) fun ⟨_, _⟩ => Spends.pure)
instance {f : Dec R ε α} [h : Spd f] : Spd (decodeList f) := ⟨sp_list h.spends⟩

theorem sp_decodeByteVector : Spends (R := R) (decodeByteVector) := by
  unfold decodeByteVector
  spends
instance : Spd (R := R) (decodeByteVector) := ⟨sp_decodeByteVector⟩

theorem sp_decodeName : Spends (R := R) (decodeName) := by
  unfold decodeName
  spends
instance : Spd (R := R) (decodeName) := ⟨sp_decodeName⟩

theorem sp_i64ToU32 (x : Int64) : Spends (R := R) (ε := ε) (i64ToU32 x) := by
  unfold i64ToU32
  spends
instance (x : Int64) : Spd (R := R) (ε := ε) (i64ToU32 x) := ⟨sp_i64ToU32 x⟩

theorem sp_HeapType_decode : Spends (R := R) (HeapType.decode) := by
  unfold HeapType.decode
  spends
instance : Spd (R := R) (HeapType.decode) := ⟨sp_HeapType_decode⟩

theorem sp_AbsHeapType_decode : Spends (R := R) (AbsHeapType.decode) := by
  unfold AbsHeapType.decode
  spends
instance : Spd (R := R) (AbsHeapType.decode) := ⟨sp_AbsHeapType_decode⟩

theorem sp_RefType_decode : Spends (R := R) (RefType.decode) := by
  unfold RefType.decode
  spends
instance : Spd (R := R) (RefType.decode) := ⟨sp_RefType_decode⟩

theorem sp_ValType_decode : Spends (R := R) (ValType.decode) := by
  unfold ValType.decode
  spends
instance : Spd (R := R) (ValType.decode) := ⟨sp_ValType_decode⟩

theorem sp_decodeResultType : Spends (R := R) (decodeResultType) := by
  unfold decodeResultType
  spends
instance : Spd (R := R) (decodeResultType) := ⟨sp_decodeResultType⟩

theorem sp_GlobalType_decode : Spends (R := R) (GlobalType.decode) := by
  unfold GlobalType.decode
  spends
instance : Spd (R := R) (GlobalType.decode) := ⟨sp_GlobalType_decode⟩

theorem sp_decodeStorageType : Spends (R := R) (decodeStorageType) := by
  unfold decodeStorageType
  spends
instance : Spd (R := R) (decodeStorageType) := ⟨sp_decodeStorageType⟩

theorem sp_decodeFieldType : Spends (R := R) (decodeFieldType) := by
  unfold decodeFieldType
  spends
instance : Spd (R := R) (decodeFieldType) := ⟨sp_decodeFieldType⟩

theorem sp_CompType_decode : Spends (R := R) (CompType.decode) := by
  unfold CompType.decode
  spends
instance : Spd (R := R) (CompType.decode) := ⟨sp_CompType_decode⟩

theorem sp_SubType_decode : Spends (R := R) (SubType.decode) := by
  unfold SubType.decode
  spends
instance : Spd (R := R) (SubType.decode) := ⟨sp_SubType_decode⟩

theorem sp_RecType_decode : Spends (R := R) (RecType.decode) := by
  unfold RecType.decode
  spends
instance : Spd (R := R) (RecType.decode) := ⟨sp_RecType_decode⟩

theorem sp_parseLimitsRest (has_max : Bool) (address_type : AddrType) : Spends (R := R) (parseLimitsRest has_max address_type) := by
  unfold parseLimitsRest
  spends
instance (has_max : Bool) (address_type : AddrType) : Spd (R := R) (parseLimitsRest has_max address_type) := ⟨sp_parseLimitsRest has_max address_type⟩

theorem sp_parseLimits : Spends (R := R) (parseLimits) := by
  unfold parseLimits
  spends
instance : Spd (R := R) (parseLimits) := ⟨sp_parseLimits⟩

theorem sp_parseMemType : Spends (R := R) (parseMemType) := by
  unfold parseMemType
  spends
instance : Spd (R := R) (parseMemType) := ⟨sp_parseMemType⟩

theorem sp_TableType_decode : Spends (R := R) (TableType.decode) := by
  unfold TableType.decode
  spends
instance : Spd (R := R) (TableType.decode) := ⟨sp_TableType_decode⟩

theorem sp_TagType_decode : Spends (R := R) (TagType.decode) := by
  unfold TagType.decode
  spends
instance : Spd (R := R) (TagType.decode) := ⟨sp_TagType_decode⟩

theorem sp_ExternType_decode : Spends (R := R) (ExternType.decode) := by
  unfold ExternType.decode
  spends
instance : Spd (R := R) (ExternType.decode) := ⟨sp_ExternType_decode⟩

theorem sp_Memarg_decode : Spends (R := R) (Memarg.decode) := by
  unfold Memarg.decode
  spends
instance : Spd (R := R) (Memarg.decode) := ⟨sp_Memarg_decode⟩

theorem sp_LaneIdx_decode : Spends (R := R) (LaneIdx.decode) := by
  unfold LaneIdx.decode
  spends
instance : Spd (R := R) (LaneIdx.decode) := ⟨sp_LaneIdx_decode⟩

theorem sp_blockTypeIndex : Spends (R := R) (blockTypeIndex) := by
  unfold blockTypeIndex
  spends
instance : Spd (R := R) (blockTypeIndex) := ⟨sp_blockTypeIndex⟩

theorem sp_BlockType_decode : Spends (R := R) (BlockType.decode) := by
  unfold BlockType.decode
  spends
instance : Spd (R := R) (BlockType.decode) := ⟨sp_BlockType_decode⟩

theorem sp_Catch_decode : Spends (R := R) (Catch.decode) := by
  unfold Catch.decode
  spends
instance : Spd (R := R) (Catch.decode) := ⟨sp_Catch_decode⟩

theorem sp_decodeCastop : Spends (R := R) (decodeCastop) := by
  unfold decodeCastop
  spends
instance : Spd (R := R) (decodeCastop) := ⟨sp_decodeCastop⟩

theorem sp_aggType : Spends (R := R) (aggType) := by
  unfold aggType
  spends
instance : Spd (R := R) (aggType) := ⟨sp_aggType⟩

theorem sp_aggField : Spends (R := R) (aggField) := by
  unfold aggField
  spends
instance : Spd (R := R) (aggField) := ⟨sp_aggField⟩

theorem sp_aggLen : Spends (R := R) (aggLen) := by
  unfold aggLen
  spends
instance : Spd (R := R) (aggLen) := ⟨sp_aggLen⟩

theorem sp_aggData : Spends (R := R) (aggData) := by
  unfold aggData
  spends
instance : Spd (R := R) (aggData) := ⟨sp_aggData⟩

theorem sp_aggElem : Spends (R := R) (aggElem) := by
  unfold aggElem
  spends
instance : Spd (R := R) (aggElem) := ⟨sp_aggElem⟩

theorem sp_refHeap : Spends (R := R) (refHeap) := by
  unfold refHeap
  spends
instance : Spd (R := R) (refHeap) := ⟨sp_refHeap⟩

theorem sp_ctlHeap : Spends (R := R) (ctlHeap) := by
  unfold ctlHeap
  spends
instance : Spd (R := R) (ctlHeap) := ⟨sp_ctlHeap⟩

theorem sp_ctlLabel : Spends (R := R) (ctlLabel) := by
  unfold ctlLabel
  spends
instance : Spd (R := R) (ctlLabel) := ⟨sp_ctlLabel⟩

theorem sp_ctlFunc : Spends (R := R) (ctlFunc) := by
  unfold ctlFunc
  spends
instance : Spd (R := R) (ctlFunc) := ⟨sp_ctlFunc⟩

theorem sp_ctlType : Spends (R := R) (ctlType) := by
  unfold ctlType
  spends
instance : Spd (R := R) (ctlType) := ⟨sp_ctlType⟩

theorem sp_ctlTable : Spends (R := R) (ctlTable) := by
  unfold ctlTable
  spends
instance : Spd (R := R) (ctlTable) := ⟨sp_ctlTable⟩

theorem sp_tabTable : Spends (R := R) (tabTable) := by
  unfold tabTable
  spends
instance : Spd (R := R) (tabTable) := ⟨sp_tabTable⟩

theorem sp_tabElem : Spends (R := R) (tabElem) := by
  unfold tabElem
  spends
instance : Spd (R := R) (tabElem) := ⟨sp_tabElem⟩

theorem sp_memMem : Spends (R := R) (memMem) := by
  unfold memMem
  spends
instance : Spd (R := R) (memMem) := ⟨sp_memMem⟩

theorem sp_memData : Spends (R := R) (memData) := by
  unfold memData
  spends
instance : Spd (R := R) (memData) := ⟨sp_memData⟩

theorem sp_varLocal : Spends (R := R) (varLocal) := by
  unfold varLocal
  spends
instance : Spd (R := R) (varLocal) := ⟨sp_varLocal⟩

theorem sp_varGlobal : Spends (R := R) (varGlobal) := by
  unfold varGlobal
  spends
instance : Spd (R := R) (varGlobal) := ⟨sp_varGlobal⟩

theorem sp_vecMemarg : Spends (R := R) (vecMemarg) := by
  unfold vecMemarg
  spends
instance : Spd (R := R) (vecMemarg) := ⟨sp_vecMemarg⟩

theorem sp_vecLane : Spends (R := R) (vecLane) := by
  unfold vecLane
  spends
instance : Spd (R := R) (vecLane) := ⟨sp_vecLane⟩

theorem sp_vecBytes : Spends (R := R) (vecBytes) := by
  unfold vecBytes
  refine Spends.step (Spends.bind (Spends.mapErr Spd.spends) fun buf => ?_)
  by_cases h : buf.length = 16
  · rw [dif_pos h]; exact Spends.pure
  · rw [dif_neg h]; exact Spends.panic
instance : Spd (R := R) (vecBytes) := ⟨sp_vecBytes⟩

theorem sp_parseFB (op : UInt32) : Spends (R := R) (parseFB op) := by
  unfold parseFB
  spends
instance (op : UInt32) : Spd (R := R) (parseFB op) := ⟨sp_parseFB op⟩

theorem sp_parseFC (op : UInt32) : Spends (R := R) (parseFC op) := by
  unfold parseFC
  spends
instance (op : UInt32) : Spd (R := R) (parseFC op) := ⟨sp_parseFC op⟩

theorem sp_parseFD (op : UInt32) : Spends (R := R) (parseFD op) := by
  unfold parseFD
  spends
instance (op : UInt32) : Spd (R := R) (parseFD op) := ⟨sp_parseFD op⟩

theorem sp_parseSimple (op : UInt8) : Spends (R := R) (parseSimple op) := by
  unfold parseSimple
  spends
instance (op : UInt8) : Spd (R := R) (parseSimple op) := ⟨sp_parseSimple op⟩

theorem sp_parseSeq {p : Dec R ParseError ParseResult} (h : Spends p) :
    ∀ n b acc, Spends (parseSeq p n b acc)
  | 0, _, _ => Spends.step Spends.fuel
  | n + 1, b, acc => by
    unfold parseSeq
    refine Spends.step (Spends.bind h fun x => ?_)
    cases x
    · exact sp_parseSeq h n _ _
    · dsimp only; spends
    · exact Spends.pure

theorem sp_parse : ∀ n, Spends (R := R) (parse n)
  | 0 => Spends.step Spends.fuel
  | n + 1 => by
    have ih := sp_parseSeq (sp_parse n)
    unfold parse
    refine Spends.step (Spends.bind (Spends.mapErr Spd.spends) fun op => ?_)
    match op with
    | [] => exact Spends.panic
    | _ :: _ :: _ => exact Spends.panic
    | [op] =>
      dsimp only
      refine Spends.ite (fun _ => Spends.pure) fun _ => Spends.ite (fun _ => Spends.pure) fun _ => Spends.ite (fun _ => ?_) fun _ => ?_
      · refine Spends.bind (Spends.mapErr Spd.spends) fun bt => Spends.bind (ih _ _ _) fun ⟨in1, parsed⟩ => ?_
        dsimp only
        refine Spends.ite (fun _ => Spends.pure) fun _ => Spends.ite (fun _ => Spends.pure) fun _ => Spends.ite (fun _ => ?_)
          fun _ => Spends.panic
        cases parsed
        · exact Spends.panic
        · exact Spends.bind (ih _ _ _) fun ⟨_, _⟩ => Spends.pure
        · exact Spends.pure
      · refine Spends.ite (fun _ => ?_) fun _ => Spends.bind Spd.spends fun _ => Spends.pure
        exact Spends.bind (Spends.mapErr Spd.spends) fun _ => Spends.bind (Spends.mapErr Spd.spends) fun _ =>
          Spends.bind (ih _ _ _) fun ⟨_, _⟩ => Spends.pure

theorem sp_exprLoop {p : Dec R ParseError ParseResult} (h : Spends p) :
    ∀ n b e, Spends (decodeExprLoop p n b e)
  | 0, _, _ => Spends.step Spends.fuel
  | n + 1, b, e => by
    unfold decodeExprLoop
    refine Spends.step (Spends.bind (Spends.mapErr h) fun x => ?_)
    cases x
    · exact Spends.bind Spends.charge fun _ => sp_exprLoop h n _ _
    · exact Spends.err
    · exact Spends.pure

theorem sp_decodeExpr : Spends (R := R) (decodeExpr) :=
  Spends.step fun r => sp_exprLoop (sp_parse _) _ _ _ r
instance : Spd (R := R) (decodeExpr) := ⟨sp_decodeExpr⟩

theorem sp_parseCodeLocal (expanded_locals : UInt64) : Spends (R := R) (parseCodeLocal expanded_locals) := by
  unfold parseCodeLocal
  spends
instance (expanded_locals : UInt64) : Spd (R := R) (parseCodeLocal expanded_locals) := ⟨sp_parseCodeLocal expanded_locals⟩

theorem sp_parseCodeBody : Spends (R := R) (parseCodeBody) := by
  unfold parseCodeBody
  refine Spends.step (Spends.bind (Spends.mapErr (sp_listS (fun st => Spd.spends) 0)) fun _ => ?_)
  spends
instance : Spd (R := R) (parseCodeBody) := ⟨sp_parseCodeBody⟩

theorem sp_parseCode : Spends (R := R) (parseCode) := by
  unfold parseCode
  spends
instance : Spd (R := R) (parseCode) := ⟨sp_parseCode⟩

theorem sp_decodeCodeSection : Spends (R := R) (decodeCodeSection) := by
  unfold decodeCodeSection
  spends
instance : Spd (R := R) (decodeCodeSection) := ⟨sp_decodeCodeSection⟩

theorem sp_decodeSectionCustom : Spends (R := R) (decodeSectionCustom) := by
  unfold decodeSectionCustom
  spends
instance : Spd (R := R) (decodeSectionCustom) := ⟨sp_decodeSectionCustom⟩

theorem sp_decodeExpr' : Spends (R := R) (decodeExpr') := by
  unfold decodeExpr'
  spends
instance : Spd (R := R) (decodeExpr') := ⟨sp_decodeExpr'⟩

theorem sp_parseData : Spends (R := R) (parseData) := by
  unfold parseData
  spends
instance : Spd (R := R) (parseData) := ⟨sp_parseData⟩

theorem sp_decodeDataSection : Spends (R := R) (decodeDataSection) := by
  unfold decodeDataSection
  spends
instance : Spd (R := R) (decodeDataSection) := ⟨sp_decodeDataSection⟩

theorem sp_decodeDatacountSection : Spends (R := R) (decodeDatacountSection) := by
  unfold decodeDatacountSection
  spends
instance : Spd (R := R) (decodeDatacountSection) := ⟨sp_decodeDatacountSection⟩

theorem sp_parseElemKind : Spends (R := R) (parseElemKind) := by
  unfold parseElemKind
  spends
instance : Spd (R := R) (parseElemKind) := ⟨sp_parseElemKind⟩

theorem sp_elemFuncs : Spends (R := R) (elemFuncs) := by
  unfold elemFuncs
  spends
instance : Spd (R := R) (elemFuncs) := ⟨sp_elemFuncs⟩

theorem sp_elemExprs : Spends (R := R) (elemExprs) := by
  unfold elemExprs
  spends
instance : Spd (R := R) (elemExprs) := ⟨sp_elemExprs⟩

theorem sp_parseElem : Spends (R := R) (parseElem) := by
  unfold parseElem
  spends
instance : Spd (R := R) (parseElem) := ⟨sp_parseElem⟩

theorem sp_decodeElementSection : Spends (R := R) (decodeElementSection) := by
  unfold decodeElementSection
  spends
instance : Spd (R := R) (decodeElementSection) := ⟨sp_decodeElementSection⟩

theorem sp_ExternIdx_from (b : UInt8) (idx : UInt32) : Spends (R := R) (ExternIdx.from b idx) := by
  unfold ExternIdx.from
  spends
instance (b : UInt8) (idx : UInt32) : Spd (R := R) (ExternIdx.from b idx) := ⟨sp_ExternIdx_from b idx⟩

theorem sp_parseExport : Spends (R := R) (parseExport) := by
  unfold parseExport
  spends
instance : Spd (R := R) (parseExport) := ⟨sp_parseExport⟩

theorem sp_decodeExportSection : Spends (R := R) (decodeExportSection) := by
  unfold decodeExportSection
  spends
instance : Spd (R := R) (decodeExportSection) := ⟨sp_decodeExportSection⟩

theorem sp_decodeFunctionSection : Spends (R := R) (decodeFunctionSection) := by
  unfold decodeFunctionSection
  spends
instance : Spd (R := R) (decodeFunctionSection) := ⟨sp_decodeFunctionSection⟩

theorem sp_decodeStartSection : Spends (R := R) (decodeStartSection) := by
  unfold decodeStartSection
  spends
instance : Spd (R := R) (decodeStartSection) := ⟨sp_decodeStartSection⟩

theorem sp_decodeTagSection : Spends (R := R) (decodeTagSection) := by
  unfold decodeTagSection
  spends
instance : Spd (R := R) (decodeTagSection) := ⟨sp_decodeTagSection⟩

theorem sp_decodeTypeSection : Spends (R := R) (decodeTypeSection) := by
  unfold decodeTypeSection
  spends
instance : Spd (R := R) (decodeTypeSection) := ⟨sp_decodeTypeSection⟩

theorem sp_decodeMemorySection : Spends (R := R) (decodeMemorySection) := by
  unfold decodeMemorySection
  spends
instance : Spd (R := R) (decodeMemorySection) := ⟨sp_decodeMemorySection⟩

theorem sp_parseGlobal : Spends (R := R) (parseGlobal) := by
  unfold parseGlobal
  spends
instance : Spd (R := R) (parseGlobal) := ⟨sp_parseGlobal⟩

theorem sp_decodeGlobalSection : Spends (R := R) (decodeGlobalSection) := by
  unfold decodeGlobalSection
  spends
instance : Spd (R := R) (decodeGlobalSection) := ⟨sp_decodeGlobalSection⟩

theorem sp_parseImport : Spends (R := R) (parseImport) := by
  unfold parseImport
  spends
instance : Spd (R := R) (parseImport) := ⟨sp_parseImport⟩

theorem sp_decodeImportSection : Spends (R := R) (decodeImportSection) := by
  unfold decodeImportSection
  spends
instance : Spd (R := R) (decodeImportSection) := ⟨sp_decodeImportSection⟩

theorem sp_decodeTable : Spends (R := R) (decodeTable) := by
  unfold decodeTable
  spends
instance : Spd (R := R) (decodeTable) := ⟨sp_decodeTable⟩

theorem sp_decodeTableSection : Spends (R := R) (decodeTableSection) := by
  unfold decodeTableSection
  spends
instance : Spd (R := R) (decodeTableSection) := ⟨sp_decodeTableSection⟩

theorem sp_Module_validateSectionKindExpected (self : Module) (current : SectionKind) : Spends (R := R) (Module.validateSectionKindExpected self current) := by
  unfold Module.validateSectionKindExpected
  spends
instance (self : Module) (current : SectionKind) : Spd (R := R) (Module.validateSectionKindExpected self current) := ⟨sp_Module_validateSectionKindExpected self current⟩

theorem sp_parsePreamble : Spends (R := R) (parsePreamble) := by
  unfold parsePreamble
  spends
instance : Spd (R := R) (parsePreamble) := ⟨sp_parsePreamble⟩

theorem sp_sectionHeaderRest (id : UInt8) : Spends (R := R) (sectionHeaderRest id) := by
  unfold sectionHeaderRest
  spends
instance (id : UInt8) : Spd (R := R) (sectionHeaderRest id) := ⟨sp_sectionHeaderRest id⟩

theorem sp_decodeSectionHeader : Spends (R := R) (decodeSectionHeader) := by
  unfold decodeSectionHeader
  refine Spends.step fun r => ?_
  have h := sp_readByte r
  generalize readByte r = x at h ⊢
  rcases x with ⟨⟨res, r'⟩, n⟩
  cases res with
  | ok id => have := sp_sectionHeaderRest id r'; simp only [Dec.more] at *; omega
  | err e => simp only at h ⊢; split <;> exact h
  | _ => exact h
instance : Spd (R := R) (decodeSectionHeader) := ⟨sp_decodeSectionHeader⟩

theorem sp_fillFuncs (push : Nat) : ∀ codes i funcs enc,
    Spends (R := R) (fillFuncs push codes i funcs enc)
  | [], _, _, _ => Spends.step Spends.pure
  | code :: codes, i, funcs, enc => by
    unfold fillFuncs
    refine Spends.step ?_
    cases funcs[i]? with
    | none => exact Spends.panic
    | some f => exact Spends.bind Spends.charge fun _ => sp_fillFuncs push codes _ _ _

theorem sp_decodeSectionBody (push : Nat) (kind : SectionKind) (st : LoopState) : Spends (R := R) (decodeSectionBody push kind st) := by
  unfold decodeSectionBody
  spends
  exact sp_fillFuncs push _ _ _ _
instance (push : Nat) (kind : SectionKind) (st : LoopState) : Spd (R := R) (decodeSectionBody push kind st) := ⟨sp_decodeSectionBody push kind st⟩

theorem sp_decodeSection (push : Nat) (h : SectionHeader) (st : LoopState) : Spends (R := R) (decodeSection push h st) := by
  unfold decodeSection
  spends
instance (push : Nat) (h : SectionHeader) (st : LoopState) : Spd (R := R) (decodeSection push h st) := ⟨sp_decodeSection push h st⟩

theorem sp_sectionLoop (push : Nat) : ∀ n st, Spends (R := R) (sectionLoop push n st)
  | 0, _ => Spends.step Spends.fuel
  | n + 1, st => by
    unfold sectionLoop
    refine Spends.step (Spends.bind (Spends.mapErr Spd.spends) fun h => ?_)
    cases h
    · exact Spends.pure
    · exact Spends.bind Spd.spends fun _ => sp_sectionLoop push n _

theorem sp_finalChecks (st : LoopState) : Spends (R := R) (finalChecks st) := by
  unfold finalChecks
  spends
instance (st : LoopState) : Spd (R := R) (finalChecks st) := ⟨sp_finalChecks st⟩

theorem sp_decodeModule (push : Nat) : Spends (R := R) (decodeModule push) :=
  Spends.step fun r => Spends.bind (Spends.mapErr sp_parsePreamble)
    (fun _ => Spends.bind (sp_sectionLoop push _ _) fun _ => sp_finalChecks _) r
instance (push : Nat) : Spd (R := R) (decodeModule push) := ⟨sp_decodeModule push⟩

end Wadec.Counted
