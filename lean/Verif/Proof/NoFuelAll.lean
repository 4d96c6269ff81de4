import Verif.Proof.NoFuel

/-! `NF` for every decoding function of the model (C56). -/

namespace Wadec

variable {R ε ε' α β σ : Type} [Read R] {Good : R → Prop} {rank : R → Nat} {B : Nat}

/-! ### Integers, indices, floats -/

theorem u32Loop_nf (hr : Ranked Good rank) : ∀ n i res sh,
    NF Good rank B (decodeU32Loop n i res sh)
  | 0, _, _, _ => NF.err
  | n + 1, i, res, sh => by
    refine NF.bind hr (NF.mapErr (NF.readByte hr)) fun b => ?_
    refine NF.ite NF.panic (NF.ite ?_ (NF.ite NF.panic (u32Loop_nf hr _ _ _ _)))
    nofuel

theorem u64Loop_nf (hr : Ranked Good rank) : ∀ n i res sh,
    NF Good rank B (decodeU64Loop n i res sh)
  | 0, _, _, _ => NF.err
  | n + 1, i, res, sh => by
    refine NF.bind hr (NF.mapErr (NF.readByte hr)) fun b => ?_
    refine NF.ite NF.panic (NF.ite ?_ (NF.ite NF.panic (u64Loop_nf hr _ _ _ _)))
    nofuel

theorem i32Loop_nf (hr : Ranked Good rank) : ∀ n res sh,
    NF Good rank B (decodeI32Loop n res sh)
  | 0, _, _ => NF.err
  | n + 1, res, sh => by
    refine NF.bind hr (NF.mapErr (NF.readByte hr)) fun b => ?_
    refine NF.ite NF.panic (NF.ite NF.panic (NF.ite ?_ (i32Loop_nf hr _ _ _)))
    exact NF.ite NF.panic (NF.ite NF.err (NF.ite NF.pure NF.panic))

theorem i64Loop_nf (hr : Ranked Good rank) : ∀ n res sh,
    NF Good rank B (decodeI64Loop n res sh)
  | 0, _, _ => NF.err
  | n + 1, res, sh => by
    refine NF.bind hr (NF.mapErr (NF.readByte hr)) fun b => ?_
    refine NF.ite NF.panic (NF.ite NF.panic (NF.ite ?_ (i64Loop_nf hr _ _ _)))
    exact NF.ite (NF.ite NF.err (NF.ite NF.err NF.pure)) (NF.ite NF.pure NF.pure)

theorem s33Loop_nf (hr : Ranked Good rank) : ∀ n res sh,
    NF Good rank B (decodeS33Loop n res sh)
  | 0, _, _ => NF.err
  | n + 1, res, sh => by
    refine NF.bind hr (NF.mapErr (NF.readByte hr)) fun b => ?_
    refine NF.ite NF.panic (NF.ite NF.panic (NF.ite ?_ (s33Loop_nf hr _ _ _)))
    exact NF.ite NF.err (NF.ite NF.err (NF.ite (NF.ite NF.panic NF.pure) NF.pure))

theorem u32_nf (hr : Ranked Good rank) : NF Good rank B decodeU32 := u32Loop_nf hr _ _ _ _
theorem u64_nf (hr : Ranked Good rank) : NF Good rank B decodeU64 := u64Loop_nf hr _ _ _ _
theorem i32_nf (hr : Ranked Good rank) : NF Good rank B decodeI32 := i32Loop_nf hr _ _ _
theorem i64_nf (hr : Ranked Good rank) : NF Good rank B decodeI64 := i64Loop_nf hr _ _ _
theorem s33_nf (hr : Ranked Good rank) : NF Good rank B decodeS33 := s33Loop_nf hr _ _ _

theorem typeIdx_nf (hr : Ranked Good rank) : NF Good rank B TypeIdx.decode :=
  NF.bind hr (NF.mapErr (u32_nf hr)) fun _ => NF.pure
theorem funcIdx_nf (hr : Ranked Good rank) : NF Good rank B FuncIdx.decode :=
  NF.bind hr (NF.mapErr (u32_nf hr)) fun _ => NF.pure
theorem tableIdx_nf (hr : Ranked Good rank) : NF Good rank B TableIdx.decode :=
  NF.bind hr (NF.mapErr (u32_nf hr)) fun _ => NF.pure
theorem memIdx_nf (hr : Ranked Good rank) : NF Good rank B MemIdx.decode :=
  NF.bind hr (NF.mapErr (u32_nf hr)) fun _ => NF.pure
theorem globalIdx_nf (hr : Ranked Good rank) : NF Good rank B GlobalIdx.decode :=
  NF.bind hr (NF.mapErr (u32_nf hr)) fun _ => NF.pure
theorem elemIdx_nf (hr : Ranked Good rank) : NF Good rank B ElemIdx.decode :=
  NF.bind hr (NF.mapErr (u32_nf hr)) fun _ => NF.pure
theorem dataIdx_nf (hr : Ranked Good rank) : NF Good rank B DataIdx.decode :=
  NF.bind hr (NF.mapErr (u32_nf hr)) fun _ => NF.pure
theorem localIdx_nf (hr : Ranked Good rank) : NF Good rank B LocalIdx.decode :=
  NF.bind hr (NF.mapErr (u32_nf hr)) fun _ => NF.pure
theorem labelIdx_nf (hr : Ranked Good rank) : NF Good rank B LabelIdx.decode :=
  NF.bind hr (NF.mapErr (u32_nf hr)) fun _ => NF.pure
theorem tagIdx_nf (hr : Ranked Good rank) : NF Good rank B TagIdx.decode :=
  NF.bind hr (NF.mapErr (u32_nf hr)) fun _ => NF.pure

theorem f32_nf (hr : Ranked Good rank) : NF Good rank B decodeF32 :=
  NF.bind hr (NF.mapErr (NF.readExact hr)) fun _ => NF.pure
theorem f64_nf (hr : Ranked Good rank) : NF Good rank B decodeF64 :=
  NF.bind hr (NF.mapErr (NF.readExact hr)) fun _ => NF.pure

/-! ### Lists, byte vectors, names -/

theorem listLoop_nf (hr : Ranked Good rank) {f : σ → Dec R ε (α × σ)}
    (hf : ∀ st, NF Good rank B (f st)) :
    ∀ n i st items, NF Good rank B (decodeListLoop f n i st items)
  | 0, _, _, _ => NF.pure
  | n + 1, i, st, items =>
    NF.bind hr (NF.mapErr (hf st)) fun ⟨_, _⟩ => listLoop_nf hr hf n _ _ _

theorem listS_nf (hr : Ranked Good rank) {f : σ → Dec R ε (α × σ)} {st : σ}
    (hf : ∀ st, NF Good rank B (f st)) : NF Good rank B (decodeListS f st) :=
  NF.bind hr (NF.mapErr (u32_nf hr)) fun _ => NF.bind hr NF.reserve fun _ =>
    listLoop_nf hr hf _ _ _ _

theorem list_nf (hr : Ranked Good rank) {f : Dec R ε α} (hf : NF Good rank B f) :
    NF Good rank B (decodeList f) :=
  NF.bind hr (listS_nf hr fun _ => NF.bind hr hf fun _ => NF.pure) fun ⟨_, _⟩ => NF.pure

theorem byteVec_nf (hr : Ranked Good rank) : NF Good rank B decodeByteVector :=
  NF.bind hr (NF.mapErr (u32_nf hr)) fun _ => NF.bind hr (NF.reserve) fun _ =>
    NF.mapErr (NF.readExact hr)

theorem name_nf (hr : Ranked Good rank) : NF Good rank B decodeName := by
  refine NF.bind hr (NF.mapErr (byteVec_nf hr)) fun v => ?_
  nofuel

/-! ### Types -/

theorem i64ToU32_nf {x : Int64} : NF (ε := ε) Good rank B (i64ToU32 x) :=
  NF.ite NF.pure NF.panic

theorem heapType_nf (hr : Ranked Good rank) : NF Good rank B HeapType.decode := by
  have h1 := s33_nf hr.chain (B := B + 1)
  refine NF.bind hr (NF.mapErr (NF.readByte hr)) fun b => ?_
  split
  · exact NF.pure
  · refine NF.bind hr (NF.mapErr (NF.withChain h1)) fun x => NF.ite NF.err ?_
    exact NF.bind hr i64ToU32_nf fun _ => NF.pure

theorem absHeapType_nf (hr : Ranked Good rank) : NF Good rank B AbsHeapType.decode := by
  unfold AbsHeapType.decode; nofuel

theorem refType_nf (hr : Ranked Good rank) : NF Good rank B RefType.decode := by
  have h1 := heapType_nf hr (B := B)
  have h2 := absHeapType_nf hr.chain (B := B + 1)
  unfold RefType.decode; nofuel

theorem valType_nf (hr : Ranked Good rank) : NF Good rank B ValType.decode := by
  have h1 := refType_nf hr.chain (B := B + 1)
  unfold ValType.decode; nofuel

theorem resultType_nf (hr : Ranked Good rank) : NF Good rank B decodeResultType :=
  NF.mapErr (list_nf hr (valType_nf hr))

theorem globalType_nf (hr : Ranked Good rank) : NF Good rank B GlobalType.decode := by
  have h1 := valType_nf hr (B := B)
  unfold GlobalType.decode; nofuel

theorem storageType_nf (hr : Ranked Good rank) : NF Good rank B decodeStorageType := by
  have h1 := valType_nf hr.chain (B := B + 1)
  unfold decodeStorageType; nofuel

theorem fieldType_nf (hr : Ranked Good rank) : NF Good rank B decodeFieldType := by
  have h1 := storageType_nf hr (B := B)
  unfold decodeFieldType; nofuel

theorem compType_nf (hr : Ranked Good rank) : NF Good rank B CompType.decode := by
  have h1 := fieldType_nf hr (B := B)
  have h2 := list_nf hr (B := B) h1
  have h3 := resultType_nf hr (B := B)
  unfold CompType.decode; nofuel

theorem subType_nf (hr : Ranked Good rank) : NF Good rank B SubType.decode := by
  have h1 := compType_nf hr (B := B)
  have h2 := compType_nf hr.chain (B := B + 1)
  have h3 := list_nf hr (B := B) (typeIdx_nf hr)
  unfold SubType.decode; nofuel

theorem recType_nf (hr : Ranked Good rank) : NF Good rank B RecType.decode := by
  have h1 := list_nf hr (B := B) (subType_nf hr)
  have h2 := subType_nf hr.chain (B := B + 1)
  unfold RecType.decode; nofuel

theorem limits_nf (hr : Ranked Good rank) : NF Good rank B parseLimits := by
  have h1 := u64_nf hr (B := B)
  unfold parseLimits parseLimitsRest; nofuel

theorem memType_nf (hr : Ranked Good rank) : NF Good rank B parseMemType := by
  have h1 := limits_nf hr (B := B)
  unfold parseMemType; nofuel

theorem tableType_nf (hr : Ranked Good rank) : NF Good rank B TableType.decode := by
  have h1 := limits_nf hr (B := B)
  have h2 := refType_nf hr (B := B)
  unfold TableType.decode; nofuel

theorem tagType_nf (hr : Ranked Good rank) : NF Good rank B TagType.decode := by
  have h1 := typeIdx_nf hr (B := B)
  unfold TagType.decode; nofuel

theorem externType_nf (hr : Ranked Good rank) : NF Good rank B ExternType.decode := by
  have h1 := typeIdx_nf hr (B := B)
  have h2 := tableType_nf hr (B := B)
  have h3 := memType_nf hr (B := B)
  have h4 := globalType_nf hr (B := B)
  have h5 := tagType_nf hr (B := B)
  unfold ExternType.decode; nofuel

/-! ### Instructions -/

theorem memarg_nf (hr : Ranked Good rank) : NF Good rank B Memarg.decode := by
  have h1 := u32_nf hr (B := B)
  have h2 := u64_nf hr (B := B)
  have h3 := memIdx_nf hr (B := B)
  unfold Memarg.decode; nofuel

theorem laneIdx_nf (hr : Ranked Good rank) : NF Good rank B LaneIdx.decode := by
  unfold LaneIdx.decode; nofuel

theorem blockTypeIndex_nf (hr : Ranked Good rank) : NF Good rank B blockTypeIndex := by
  have h1 := s33_nf hr (B := B)
  refine NF.bind hr (NF.mapErr h1) fun x => NF.ite NF.err ?_
  exact NF.bind hr i64ToU32_nf fun _ => NF.pure

theorem blockType_nf (hr : Ranked Good rank) : NF Good rank B BlockType.decode := by
  refine NF.bind hr (NF.mapErr (NF.readByte hr)) fun b => NF.ite NF.pure ?_
  refine NF.withChain (NF.orElse hr.chain ?_ (valType_nf hr.chain)
    (NF.withChain (blockTypeIndex_nf hr.chain.chain)))
  exact Quiet.uses (Quiet.orElse ValType.q (Quiet.withChain blockTypeIndex_q))

theorem catch_nf (hr : Ranked Good rank) : NF Good rank B Catch.decode := by
  have h1 := tagIdx_nf hr (B := B)
  have h2 := labelIdx_nf hr (B := B)
  unfold Catch.decode; nofuel

theorem castop_nf (hr : Ranked Good rank) : NF Good rank B decodeCastop := by
  unfold decodeCastop; nofuel

theorem vecBytes_nf (hr : Ranked Good rank) : NF Good rank B vecBytes := by
  refine NF.bind hr (NF.mapErr (NF.readExact hr)) fun v => ?_
  by_cases h : v.length = 16
  · simp only [dif_pos h]; exact NF.pure
  · simp only [dif_neg h]; exact NF.panic

theorem parseFB_nf (hr : Ranked Good rank) {op : UInt32} : NF Good rank B (parseFB op) := by
  have a1 : NF Good rank B aggType := NF.mapErr (typeIdx_nf hr)
  have a2 : NF Good rank B aggField := NF.mapErr (u32_nf hr)
  have a3 : NF Good rank B aggLen := NF.mapErr (u32_nf hr)
  have a4 : NF Good rank B aggData := NF.mapErr (dataIdx_nf hr)
  have a5 : NF Good rank B aggElem := NF.mapErr (elemIdx_nf hr)
  have a6 : NF Good rank B refHeap := NF.mapErr (heapType_nf hr)
  have a7 : NF Good rank B ctlHeap := NF.mapErr (heapType_nf hr)
  have a8 : NF Good rank B ctlLabel := NF.mapErr (labelIdx_nf hr)
  have a9 := castop_nf hr (B := B)
  unfold parseFB; nofuel

theorem parseFC_nf (hr : Ranked Good rank) {op : UInt32} : NF Good rank B (parseFC op) := by
  have a1 : NF Good rank B memData := NF.mapErr (dataIdx_nf hr)
  have a2 : NF Good rank B memMem := NF.mapErr (memIdx_nf hr)
  have a3 : NF Good rank B tabElem := NF.mapErr (elemIdx_nf hr)
  have a4 : NF Good rank B tabTable := NF.mapErr (tableIdx_nf hr)
  unfold parseFC; nofuel

theorem parseFD_nf (hr : Ranked Good rank) {op : UInt32} : NF Good rank B (parseFD op) := by
  have a1 : NF Good rank B vecMemarg := NF.mapErr (memarg_nf hr)
  have a2 : NF Good rank B vecLane := NF.mapErr (laneIdx_nf hr)
  have a3 := vecBytes_nf hr (B := B)
  unfold parseFD; nofuel

theorem parseSimple_nf (hr : Ranked Good rank) {op : UInt8} : NF Good rank B (parseSimple op) := by
  have a1 := list_nf hr (B := B) (valType_nf hr)
  have a2 := tagIdx_nf hr (B := B)
  have a3 := list_nf hr (B := B) (labelIdx_nf hr)
  have a4 := funcIdx_nf hr (B := B)
  have a5 := memarg_nf hr (B := B)
  have a6 := u32_nf hr (B := B)
  have a7 := i32_nf hr (B := B)
  have a8 := i64_nf hr (B := B)
  have a9 := f32_nf hr (B := B)
  have a10 := f64_nf hr (B := B)
  have b1 : NF Good rank B ctlLabel := NF.mapErr (labelIdx_nf hr)
  have b2 : NF Good rank B ctlFunc := NF.mapErr (funcIdx_nf hr)
  have b3 : NF Good rank B ctlType := NF.mapErr (typeIdx_nf hr)
  have b4 : NF Good rank B ctlTable := NF.mapErr (tableIdx_nf hr)
  have b5 : NF Good rank B refHeap := NF.mapErr (heapType_nf hr)
  have b6 : NF Good rank B varLocal := NF.mapErr (localIdx_nf hr)
  have b7 : NF Good rank B varGlobal := NF.mapErr (globalIdx_nf hr)
  have b8 : NF Good rank B tabTable := NF.mapErr (tableIdx_nf hr)
  have b9 : NF Good rank B memMem := NF.mapErr (memIdx_nf hr)
  unfold parseSimple
  repeat' (first | nfstep | exact parseFB_nf hr | exact parseFC_nf hr | exact parseFD_nf hr | split)

theorem parseSeq_nf (hr : Ranked Good rank) {p : Dec R ParseError ParseResult} (hp : NF Good rank B p)
    (he : Eats Good rank p) : ∀ n b acc, n ≤ B → NF Good rank n (parseSeq p n b acc)
  | 0, _, _, _ => NF.zero Quiet.fuel.uses
  | n + 1, b, acc, h => by
    refine NF.bindEats hr (hp.mono h) he fun v => ?_
    cases v with
    | Instruction i => exact parseSeq_nf hr hp he n b _ (by omega)
    | End => exact NF.pure
    | Else => exact NF.ite NF.pure NF.err

theorem parse_eats (hr : Ranked Good rank) : ∀ n, Eats Good rank (parse n)
  | 0 => fun _ _ _ _ h => by cases h
  | n + 1 => by
    have ih := parseSeq_us (R := R) (parse_us n)
    refine Eats.bind hr (Eats.mapErr (Eats.readExact hr (by omega))) (Uses.mapErr Quiet.readExact.uses)
      fun v => ?_
    split
    · refine Uses.ite Quiet.pure.uses (Uses.ite Quiet.pure.uses (Uses.ite ?_ (Uses.ite ?_ ?_)))
      · refine Uses.bind (Uses.mapErr BlockType.q.uses) fun bt => Uses.bind (ih _ _ _) fun x => ?_
        refine Uses.ite Quiet.pure.uses (Uses.ite Quiet.pure.uses (Uses.ite ?_ Quiet.panic.uses))
        split
        · exact Quiet.pure.uses
        · exact Uses.bind (ih _ _ _) fun x => Quiet.pure.uses
        · exact Quiet.panic.uses
      · refine Uses.bind (Uses.mapErr BlockType.q.uses) fun bt => Uses.bind (Uses.mapErr (list_qu Catch.q)) fun c =>
          Uses.bind (ih _ _ _) fun x => Quiet.pure.uses
      · exact Uses.bind parseSimple_us fun _ => Quiet.pure.uses
    · exact Quiet.panic.uses

theorem parse_nf (hr : Ranked Good rank) : ∀ n, NF Good rank n (parse n)
  | 0 => NF.zero Quiet.fuel.uses
  | n + 1 => by
    have ih := fun b acc => parseSeq_nf hr (parse_nf hr n) (parse_eats hr n) n b acc (Nat.le_refl _)
    refine NF.bindEats hr (NF.mapErr (NF.readExact hr)) (Eats.mapErr (Eats.readExact hr (by omega)))
      fun v => ?_
    split
    · refine NF.ite NF.pure (NF.ite NF.pure (NF.ite ?_ (NF.ite ?_ ?_)))
      · refine NF.bind hr (NF.mapErr (blockType_nf hr)) fun bt => NF.bind hr (ih _ _) fun x => ?_
        refine NF.ite NF.pure (NF.ite NF.pure (NF.ite ?_ NF.panic))
        split
        · exact NF.pure
        · exact NF.bind hr (ih _ _) fun x => NF.pure
        · exact NF.panic
      · exact NF.bind hr (NF.mapErr (blockType_nf hr)) fun bt =>
          NF.bind hr (NF.mapErr (list_nf hr (catch_nf hr))) fun c =>
          NF.bind hr (ih _ _) fun x => NF.pure
      · exact NF.bind hr (parseSimple_nf hr) fun _ => NF.pure
    · exact NF.panic

theorem exprLoop_nf (hr : Ranked Good rank) {p : Dec R ParseError ParseResult} (hp : NF Good rank B p)
    (he : Eats Good rank p) : ∀ n b e, n ≤ B → NF Good rank n (decodeExprLoop p n b e)
  | 0, _, _, _ => NF.zero Quiet.fuel.uses
  | n + 1, b, e, h => by
    refine NF.bindEats hr (NF.mapErr (hp.mono h)) (Eats.mapErr he) fun v => ?_
    cases v with
    | Instruction i => exact exprLoop_nf hr hp he n _ _ (by omega)
    | End => exact NF.pure
    | Else => exact NF.err

theorem expr_nf (hr : Ranked Good rank) : NF Good rank B decodeExpr :=
  NF.budget hr (d := fun n => decodeExprLoop (parse n) n [] false)
    fun n => exprLoop_nf hr (parse_nf hr n) (parse_eats hr n) n _ _ (Nat.le_refl _)

theorem expr'_nf (hr : Ranked Good rank) : NF Good rank B decodeExpr' :=
  NF.bind hr (expr_nf hr) fun ⟨_, _⟩ => NF.pure

/-! ### Sections -/

theorem codeLocal_nf (hr : Ranked Good rank) {st : UInt64} :
    NF Good rank B (parseCodeLocal st) := by
  have h1 := u32_nf hr (B := B)
  have h2 := valType_nf hr (B := B)
  unfold parseCodeLocal; nofuel

theorem codeBody_nf (hr : Ranked Good rank) : NF Good rank B parseCodeBody :=
  NF.bind hr (NF.mapErr (listS_nf hr fun _ => codeLocal_nf hr)) fun ⟨_, _⟩ =>
    NF.bind hr (NF.mapErr (expr_nf hr)) fun ⟨_, _⟩ => NF.pure

theorem code_nf (hr : Ranked Good rank) : NF Good rank B parseCode :=
  NF.bind hr (NF.mapErr (u32_nf hr)) fun _ =>
    NF.bind hr (NF.withTake (codeBody_nf hr.take)) fun ⟨⟨_, _, _⟩, _⟩ => NF.ite NF.err NF.pure

theorem custom_nf (hr : Ranked Good rank) : NF Good rank B decodeSectionCustom :=
  NF.bind hr (NF.mapErr (name_nf hr)) fun _ =>
    NF.bind hr (NF.mapErr (NF.readToEnd hr)) fun _ => NF.pure

theorem data_nf (hr : Ranked Good rank) : NF Good rank B parseData := by
  have h1 := u32_nf hr (B := B)
  have h2 := expr'_nf (B := B) hr
  have h3 := byteVec_nf hr (B := B)
  have h4 := memIdx_nf hr (B := B)
  unfold parseData; nofuel

theorem elemKind_nf (hr : Ranked Good rank) : NF Good rank B parseElemKind := by
  unfold parseElemKind; nofuel

theorem elem_nf (hr : Ranked Good rank) : NF Good rank B parseElem := by
  have h1 := u32_nf hr (B := B)
  have h2 := expr'_nf (B := B) hr
  have h4 := tableIdx_nf hr (B := B)
  have h5 := refType_nf hr (B := B)
  have h6 : NF Good rank B elemFuncs := NF.mapErr (list_nf hr (funcIdx_nf hr))
  have h7 : NF Good rank B elemExprs := NF.mapErr (list_nf hr h2)
  have h8 := elemKind_nf hr (B := B)
  unfold parseElem; nofuel

theorem externIdx_nf {b : UInt8} {n : UInt32} :
    NF Good rank B (ExternIdx.from b n) := by
  unfold ExternIdx.from; nofuel

theorem export_nf (hr : Ranked Good rank) : NF Good rank B parseExport :=
  NF.bind hr (NF.mapErr (name_nf hr)) fun _ => NF.bind hr (NF.mapErr (NF.readByte hr)) fun _ =>
    NF.bind hr (NF.mapErr (u32_nf hr)) fun _ => NF.bind hr (NF.mapErr externIdx_nf) fun _ =>
      NF.pure

theorem import_nf (hr : Ranked Good rank) : NF Good rank B parseImport := by
  have h1 := name_nf hr (B := B)
  have h2 := externType_nf hr (B := B)
  unfold parseImport; nofuel

theorem global_nf (hr : Ranked Good rank) : NF Good rank B parseGlobal := by
  have h1 := expr'_nf (B := B) hr
  have h2 := globalType_nf hr (B := B)
  unfold parseGlobal; nofuel

theorem table_nf (hr : Ranked Good rank) : NF Good rank B decodeTable := by
  have h1 := expr'_nf (B := B) hr
  have h2 := tableType_nf hr (B := B)
  have h3 := tableType_nf hr.chain (B := B + 1)
  unfold decodeTable; nofuel

theorem fillFuncs_nf : ∀ codes i funcs enc,
    NF Good rank B (fillFuncs codes i funcs enc)
  | [], _, _, _ => NF.pure
  | c :: cs, i, funcs, enc => by
    unfold fillFuncs
    split
    · exact NF.panic
    · exact fillFuncs_nf cs _ _ _

theorem sectionBody_nf (hr : Ranked Good rank) {k : SectionKind} {st : LoopState} :
    NF Good rank B (decodeSectionBody k st) := by
  cases k with
  | Custom => exact NF.bind hr (NF.mapErr (custom_nf hr)) fun _ => NF.pure
  | «Type» => exact NF.bind hr (NF.mapErr (NF.mapErr (list_nf hr (recType_nf hr)))) fun _ => NF.pure
  | Import => exact NF.bind hr (NF.mapErr (NF.mapErr (list_nf hr (import_nf hr)))) fun _ => NF.pure
  | Function => exact NF.bind hr (NF.mapErr (NF.mapErr (list_nf hr (typeIdx_nf hr)))) fun _ => NF.pure
  | Table => exact NF.bind hr (NF.mapErr (NF.mapErr (list_nf hr (table_nf hr)))) fun _ => NF.pure
  | Memory => exact NF.bind hr (NF.mapErr (NF.mapErr (list_nf hr (memType_nf hr)))) fun _ => NF.pure
  | Tag => exact NF.bind hr (NF.mapErr (NF.mapErr (list_nf hr (tagType_nf hr)))) fun _ => NF.pure
  | Global => exact NF.bind hr (NF.mapErr (NF.mapErr (list_nf hr (global_nf hr)))) fun _ => NF.pure
  | Export => exact NF.bind hr (NF.mapErr (NF.mapErr (list_nf hr (export_nf hr)))) fun _ => NF.pure
  | Start => exact NF.bind hr (NF.mapErr (NF.mapErr (funcIdx_nf hr))) fun _ => NF.pure
  | Element => exact NF.bind hr (NF.mapErr (NF.mapErr (list_nf hr (elem_nf hr)))) fun _ => NF.pure
  | DataCount => exact NF.bind hr (NF.mapErr (NF.mapErr (u32_nf hr))) fun _ => NF.pure
  | Code =>
    refine NF.bind hr (NF.mapErr (NF.mapErr (list_nf hr (code_nf hr)))) fun codes => NF.ite NF.err ?_
    exact NF.bind hr (fillFuncs_nf _ _ _ _) fun ⟨_, _⟩ => NF.pure
  | Data =>
    refine NF.bind hr (NF.mapErr (NF.mapErr (list_nf hr (data_nf hr)))) fun datas => ?_
    split
    · exact NF.ite NF.err NF.pure
    · exact NF.pure

theorem section_nf (hr : Ranked Good rank) {h : SectionHeader} {st : LoopState} :
    NF Good rank B (decodeSection h st) := by
  have h1 : NF Good rank B (st.module.validateSectionKindExpected h.kind) := by
    unfold Module.validateSectionKindExpected; nofuel
  exact NF.bind hr h1 fun _ => NF.bind hr (NF.withTake (sectionBody_nf hr.take)) fun ⟨_, _⟩ =>
    NF.ite NF.err NF.pure

theorem headerRest_nf (hr : Ranked Good rank) {b : UInt8} :
    NF Good rank B (sectionHeaderRest b) := by
  have h1 := u32_nf hr (B := B)
  unfold sectionHeaderRest; nofuel

theorem header_nf (hr : Ranked Good rank) : NF Good rank B decodeSectionHeader := by
  refine ⟨header_q.uses, fun r g hb => ?_⟩
  have h1 := (NF.readByte (B := B) hr).2 r g hb
  have h2 := (NF.readByte (B := B) hr).1.kept hr g
  simp only [decodeSectionHeader]
  generalize readByte r = o at h1 h2
  obtain ⟨o1, r1⟩ := o
  cases o1 with
  | ok v => exact (headerRest_nf (B := B) hr).2 r1 h2.1 (by have := h2.2; simp only at this; omega)
  | err e => simp only; split <;> simp
  | panic => simp
  | fuel => exact absurd rfl h1

/-- A section header takes at least one byte. -/
theorem header_eats (hr : Ranked Good rank) {r r' : R} {h : SectionHeader} (g : Good r)
    (hd : decodeSectionHeader r = (.ok (some h), r')) : rank r' < rank r := by
  have h2 := (NF.readByte (B := 0) hr).1.kept hr g
  have h3 := Eats.readByte hr r
  simp only [decodeSectionHeader] at hd
  generalize readByte r = o at hd h2 h3
  obtain ⟨o1, r1⟩ := o
  cases o1 with
  | ok v =>
    have h4 := (headerRest_nf (B := 0) hr (b := v)).1.kept hr h2.1
    have h5 := h3 v r1 g rfl
    simp only at hd h4
    rw [hd] at h4
    have := h4.2
    simp only at this
    omega
  | err e => simp only at hd; split at hd <;> cases hd
  | _ => cases hd

theorem loop_nf (hr : Ranked Good rank) : ∀ n st, NF Good rank n (sectionLoop n st)
  | 0, _ => NF.zero Quiet.fuel.uses
  | n + 1, st => by
    refine ⟨loop_us _ _, fun r g hb => ?_⟩
    have h1 := (NF.mapErr (f := DecodeModuleError.DecodeSectionHeader) (header_nf (B := n + 1) hr)).2 r g hb
    have h2 := (Uses.mapErr (f := DecodeModuleError.DecodeSectionHeader) header_q.uses).kept hr g
    have h3 := fun h r' => header_eats hr (r := r) (r' := r') (h := h) g
    simp only [sectionLoop, Bind.bind, Dec.bind]
    simp only [Dec.mapErr] at h1 h2 ⊢
    generalize decodeSectionHeader r = o at h1 h2 h3
    obtain ⟨o1, r1⟩ := o
    cases o1 with
    | ok v =>
      cases v with
      | none => intro h; cases h
      | some h =>
        exact (NF.bind hr (section_nf hr) fun st => loop_nf hr n st).2 r1 h2.1 (by
          have := h3 h r1 rfl
          omega)
    | err e => intro h; cases h
    | panic => intro h; cases h
    | fuel => exact absurd rfl h1

theorem preamble_nf (hr : Ranked Good rank) : NF Good rank B parsePreamble := by
  unfold parsePreamble; nofuel

theorem finalChecks_nf {st : LoopState} : NF Good rank B (finalChecks st) := by
  unfold finalChecks; nofuel

theorem module_nf (hr : Ranked Good rank) : NF Good rank B decodeModule :=
  NF.budget hr
    (d := fun n => do
      parsePreamble.mapErr DecodeModuleError.ParsePreamble
      let st ← sectionLoop n ⟨Module.default, false, false⟩
      finalChecks st)
    fun _ => NF.bind hr (NF.mapErr (preamble_nf hr)) fun _ =>
      NF.bind hr (loop_nf hr _ _) fun _ => finalChecks_nf

end Wadec
