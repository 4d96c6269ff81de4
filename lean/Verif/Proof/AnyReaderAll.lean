import Verif.Proof.AnyReader

/-! `Sims` for every decoding function of the model (C56). -/

namespace Wadec

variable {R S ε ε' α β σ : Type} [Read R] [Read S] {Rel : R → S → Prop}

/-! ### Integers, indices, floats -/

theorem u32Loop_sims (hs : Sim Rel) : ∀ n i res sh,
    Sims Rel (decodeU32Loop n i res sh) (decodeU32Loop n i res sh)
  | 0, _, _, _ => Sims.err
  | n + 1, i, res, sh => by
    refine Sims.bind (Sims.mapErr (Sims.readByte hs)) fun b => ?_
    refine Sims.ite Sims.panic (Sims.ite ?_ (Sims.ite Sims.panic (u32Loop_sims hs _ _ _ _)))
    sims

theorem u64Loop_sims (hs : Sim Rel) : ∀ n i res sh,
    Sims Rel (decodeU64Loop n i res sh) (decodeU64Loop n i res sh)
  | 0, _, _, _ => Sims.err
  | n + 1, i, res, sh => by
    refine Sims.bind (Sims.mapErr (Sims.readByte hs)) fun b => ?_
    refine Sims.ite Sims.panic (Sims.ite ?_ (Sims.ite Sims.panic (u64Loop_sims hs _ _ _ _)))
    sims

theorem i32Loop_sims (hs : Sim Rel) : ∀ n res sh,
    Sims Rel (decodeI32Loop n res sh) (decodeI32Loop n res sh)
  | 0, _, _ => Sims.err
  | n + 1, res, sh => by
    refine Sims.bind (Sims.mapErr (Sims.readByte hs)) fun b => ?_
    refine Sims.ite Sims.panic (Sims.ite Sims.panic (Sims.ite ?_ (i32Loop_sims hs _ _ _)))
    exact Sims.ite Sims.panic (Sims.ite Sims.err (Sims.ite Sims.pure Sims.panic))

theorem i64Loop_sims (hs : Sim Rel) : ∀ n res sh,
    Sims Rel (decodeI64Loop n res sh) (decodeI64Loop n res sh)
  | 0, _, _ => Sims.err
  | n + 1, res, sh => by
    refine Sims.bind (Sims.mapErr (Sims.readByte hs)) fun b => ?_
    refine Sims.ite Sims.panic (Sims.ite Sims.panic (Sims.ite ?_ (i64Loop_sims hs _ _ _)))
    exact Sims.ite (Sims.ite Sims.err (Sims.ite Sims.err Sims.pure)) (Sims.ite Sims.pure Sims.pure)

theorem s33Loop_sims (hs : Sim Rel) : ∀ n res sh,
    Sims Rel (decodeS33Loop n res sh) (decodeS33Loop n res sh)
  | 0, _, _ => Sims.err
  | n + 1, res, sh => by
    refine Sims.bind (Sims.mapErr (Sims.readByte hs)) fun b => ?_
    refine Sims.ite Sims.panic (Sims.ite Sims.panic (Sims.ite ?_ (s33Loop_sims hs _ _ _)))
    exact Sims.ite Sims.err (Sims.ite Sims.err (Sims.ite (Sims.ite Sims.panic Sims.pure) Sims.pure))

theorem u32_sims (hs : Sim Rel) : Sims Rel decodeU32 decodeU32 := u32Loop_sims hs _ _ _ _
theorem u64_sims (hs : Sim Rel) : Sims Rel decodeU64 decodeU64 := u64Loop_sims hs _ _ _ _
theorem i32_sims (hs : Sim Rel) : Sims Rel decodeI32 decodeI32 := i32Loop_sims hs _ _ _
theorem i64_sims (hs : Sim Rel) : Sims Rel decodeI64 decodeI64 := i64Loop_sims hs _ _ _
theorem s33_sims (hs : Sim Rel) : Sims Rel decodeS33 decodeS33 := s33Loop_sims hs _ _ _

theorem typeIdx_sims (hs : Sim Rel) : Sims Rel TypeIdx.decode TypeIdx.decode :=
  Sims.bind (Sims.mapErr (u32_sims hs)) fun _ => Sims.pure
theorem funcIdx_sims (hs : Sim Rel) : Sims Rel FuncIdx.decode FuncIdx.decode :=
  Sims.bind (Sims.mapErr (u32_sims hs)) fun _ => Sims.pure
theorem tableIdx_sims (hs : Sim Rel) : Sims Rel TableIdx.decode TableIdx.decode :=
  Sims.bind (Sims.mapErr (u32_sims hs)) fun _ => Sims.pure
theorem memIdx_sims (hs : Sim Rel) : Sims Rel MemIdx.decode MemIdx.decode :=
  Sims.bind (Sims.mapErr (u32_sims hs)) fun _ => Sims.pure
theorem globalIdx_sims (hs : Sim Rel) : Sims Rel GlobalIdx.decode GlobalIdx.decode :=
  Sims.bind (Sims.mapErr (u32_sims hs)) fun _ => Sims.pure
theorem elemIdx_sims (hs : Sim Rel) : Sims Rel ElemIdx.decode ElemIdx.decode :=
  Sims.bind (Sims.mapErr (u32_sims hs)) fun _ => Sims.pure
theorem dataIdx_sims (hs : Sim Rel) : Sims Rel DataIdx.decode DataIdx.decode :=
  Sims.bind (Sims.mapErr (u32_sims hs)) fun _ => Sims.pure
theorem localIdx_sims (hs : Sim Rel) : Sims Rel LocalIdx.decode LocalIdx.decode :=
  Sims.bind (Sims.mapErr (u32_sims hs)) fun _ => Sims.pure
theorem labelIdx_sims (hs : Sim Rel) : Sims Rel LabelIdx.decode LabelIdx.decode :=
  Sims.bind (Sims.mapErr (u32_sims hs)) fun _ => Sims.pure
theorem tagIdx_sims (hs : Sim Rel) : Sims Rel TagIdx.decode TagIdx.decode :=
  Sims.bind (Sims.mapErr (u32_sims hs)) fun _ => Sims.pure

theorem f32_sims (hs : Sim Rel) : Sims Rel decodeF32 decodeF32 :=
  Sims.bind (Sims.mapErr (Sims.readExact hs)) fun _ => Sims.pure
theorem f64_sims (hs : Sim Rel) : Sims Rel decodeF64 decodeF64 :=
  Sims.bind (Sims.mapErr (Sims.readExact hs)) fun _ => Sims.pure

/-! ### Lists, byte vectors, names -/

theorem listLoop_sims {f : σ → Dec R ε (α × σ)} {f' : σ → Dec S ε (α × σ)}
    (hf : ∀ st, Sims Rel (f st) (f' st)) :
    ∀ n i st items, Sims Rel (decodeListLoop f n i st items) (decodeListLoop f' n i st items)
  | 0, _, _, _ => Sims.pure
  | n + 1, i, st, items =>
    Sims.bind (Sims.mapErr (hf st)) fun ⟨_, _⟩ => listLoop_sims hf n _ _ _

theorem listS_sims (hs : Sim Rel) {f : σ → Dec R ε (α × σ)} {f' : σ → Dec S ε (α × σ)} {st : σ}
    (hf : ∀ st, Sims Rel (f st) (f' st)) : Sims Rel (decodeListS f st) (decodeListS f' st) :=
  Sims.bind (Sims.mapErr (u32_sims hs)) fun _ => Sims.bind (Sims.reserve hs) fun _ =>
    listLoop_sims hf _ _ _ _

theorem list_sims (hs : Sim Rel) {f : Dec R ε α} {f' : Dec S ε α} (hf : Sims Rel f f') :
    Sims Rel (decodeList f) (decodeList f') :=
  Sims.bind (listS_sims hs fun _ => Sims.bind hf fun _ => Sims.pure) fun ⟨_, _⟩ => Sims.pure

theorem byteVec_sims (hs : Sim Rel) : Sims Rel decodeByteVector decodeByteVector :=
  Sims.bind (Sims.mapErr (u32_sims hs)) fun _ => Sims.bind (Sims.reserve hs) fun _ =>
    Sims.mapErr (Sims.readExact hs)

theorem name_sims (hs : Sim Rel) : Sims Rel decodeName decodeName := by
  refine Sims.bind (Sims.mapErr (byteVec_sims hs)) fun v => ?_
  sims

/-! ### Types -/

theorem i64ToU32_sims {x : Int64} : Sims (ε := ε) Rel (i64ToU32 x) (i64ToU32 x) :=
  Sims.ite Sims.pure Sims.panic

theorem heapType_sims (hs : Sim Rel) : Sims Rel HeapType.decode HeapType.decode := by
  have h1 := s33_sims hs.chain
  refine Sims.bind (Sims.mapErr (Sims.readByte hs)) fun b => ?_
  split
  · exact Sims.pure
  · refine Sims.bind (Sims.mapErr (Sims.withChain h1)) fun x => Sims.ite Sims.err ?_
    exact Sims.bind i64ToU32_sims fun _ => Sims.pure

theorem absHeapType_sims (hs : Sim Rel) : Sims Rel AbsHeapType.decode AbsHeapType.decode := by
  unfold AbsHeapType.decode; sims

theorem refType_sims (hs : Sim Rel) : Sims Rel RefType.decode RefType.decode := by
  have h1 := heapType_sims hs
  have h2 := absHeapType_sims hs.chain
  unfold RefType.decode; sims

theorem valType_sims (hs : Sim Rel) : Sims Rel ValType.decode ValType.decode := by
  have h1 := refType_sims hs.chain
  unfold ValType.decode; sims

theorem resultType_sims (hs : Sim Rel) : Sims Rel decodeResultType decodeResultType :=
  Sims.mapErr (list_sims hs (valType_sims hs))

theorem globalType_sims (hs : Sim Rel) : Sims Rel GlobalType.decode GlobalType.decode := by
  have h1 := valType_sims hs
  unfold GlobalType.decode; sims

theorem storageType_sims (hs : Sim Rel) : Sims Rel decodeStorageType decodeStorageType := by
  have h1 := valType_sims hs.chain
  unfold decodeStorageType; sims

theorem fieldType_sims (hs : Sim Rel) : Sims Rel decodeFieldType decodeFieldType := by
  have h1 := storageType_sims hs
  unfold decodeFieldType; sims

theorem compType_sims (hs : Sim Rel) : Sims Rel CompType.decode CompType.decode := by
  have h1 := fieldType_sims hs
  have h2 := list_sims hs h1
  have h3 := resultType_sims hs
  unfold CompType.decode; sims

theorem subType_sims (hs : Sim Rel) : Sims Rel SubType.decode SubType.decode := by
  have h1 := compType_sims hs
  have h2 := compType_sims hs.chain
  have h3 := list_sims hs (typeIdx_sims hs)
  unfold SubType.decode; sims

theorem recType_sims (hs : Sim Rel) : Sims Rel RecType.decode RecType.decode := by
  have h1 := list_sims hs (subType_sims hs)
  have h2 := subType_sims hs.chain
  unfold RecType.decode; sims

theorem limits_sims (hs : Sim Rel) : Sims Rel parseLimits parseLimits := by
  have h1 := u64_sims hs
  unfold parseLimits parseLimitsRest; sims

theorem memType_sims (hs : Sim Rel) : Sims Rel parseMemType parseMemType := by
  have h1 := limits_sims hs
  unfold parseMemType; sims

theorem tableType_sims (hs : Sim Rel) : Sims Rel TableType.decode TableType.decode := by
  have h1 := limits_sims hs
  have h2 := refType_sims hs
  unfold TableType.decode; sims

theorem tagType_sims (hs : Sim Rel) : Sims Rel TagType.decode TagType.decode := by
  have h1 := typeIdx_sims hs
  unfold TagType.decode; sims

theorem externType_sims (hs : Sim Rel) : Sims Rel ExternType.decode ExternType.decode := by
  have h1 := typeIdx_sims hs
  have h2 := tableType_sims hs
  have h3 := memType_sims hs
  have h4 := globalType_sims hs
  have h5 := tagType_sims hs
  unfold ExternType.decode; sims

/-! ### Instructions -/

theorem memarg_sims (hs : Sim Rel) : Sims Rel Memarg.decode Memarg.decode := by
  have h1 := u32_sims hs
  have h2 := u64_sims hs
  have h3 := memIdx_sims hs
  unfold Memarg.decode; sims

theorem laneIdx_sims (hs : Sim Rel) : Sims Rel LaneIdx.decode LaneIdx.decode := by
  unfold LaneIdx.decode; sims

theorem blockTypeIndex_sims (hs : Sim Rel) : Sims Rel blockTypeIndex blockTypeIndex := by
  have h1 := s33_sims hs
  refine Sims.bind (Sims.mapErr h1) fun x => Sims.ite Sims.err ?_
  exact Sims.bind i64ToU32_sims fun _ => Sims.pure

theorem blockType_sims (hs : Sim Rel) : Sims Rel BlockType.decode BlockType.decode := by
  refine Sims.bind (Sims.mapErr (Sims.readByte hs)) fun b => Sims.ite Sims.pure ?_
  exact Sims.withChain (Sims.orElseDiscard (valType_sims hs.chain)
    (Sims.withChain (blockTypeIndex_sims hs.chain.chain)))

theorem catch_sims (hs : Sim Rel) : Sims Rel Catch.decode Catch.decode := by
  have h1 := tagIdx_sims hs
  have h2 := labelIdx_sims hs
  unfold Catch.decode; sims

theorem castop_sims (hs : Sim Rel) : Sims Rel decodeCastop decodeCastop := by
  unfold decodeCastop; sims

theorem vecBytes_sims (hs : Sim Rel) : Sims Rel vecBytes vecBytes := by
  refine Sims.bind (Sims.mapErr (Sims.readExact hs)) fun v => ?_
  by_cases h : v.length = 16
  · simp only [dif_pos h]; exact Sims.pure
  · simp only [dif_neg h]; exact Sims.panic

theorem parseFB_sims (hs : Sim Rel) {op : UInt32} : Sims Rel (parseFB op) (parseFB op) := by
  have a1 : Sims Rel aggType aggType := Sims.mapErr (typeIdx_sims hs)
  have a2 : Sims Rel aggField aggField := Sims.mapErr (u32_sims hs)
  have a3 : Sims Rel aggLen aggLen := Sims.mapErr (u32_sims hs)
  have a4 : Sims Rel aggData aggData := Sims.mapErr (dataIdx_sims hs)
  have a5 : Sims Rel aggElem aggElem := Sims.mapErr (elemIdx_sims hs)
  have a6 : Sims Rel refHeap refHeap := Sims.mapErr (heapType_sims hs)
  have a7 : Sims Rel ctlHeap ctlHeap := Sims.mapErr (heapType_sims hs)
  have a8 : Sims Rel ctlLabel ctlLabel := Sims.mapErr (labelIdx_sims hs)
  have a9 := castop_sims hs
  unfold parseFB; sims

theorem parseFC_sims (hs : Sim Rel) {op : UInt32} : Sims Rel (parseFC op) (parseFC op) := by
  have a1 : Sims Rel memData memData := Sims.mapErr (dataIdx_sims hs)
  have a2 : Sims Rel memMem memMem := Sims.mapErr (memIdx_sims hs)
  have a3 : Sims Rel tabElem tabElem := Sims.mapErr (elemIdx_sims hs)
  have a4 : Sims Rel tabTable tabTable := Sims.mapErr (tableIdx_sims hs)
  unfold parseFC; sims

theorem parseFD_sims (hs : Sim Rel) {op : UInt32} : Sims Rel (parseFD op) (parseFD op) := by
  have a1 : Sims Rel vecMemarg vecMemarg := Sims.mapErr (memarg_sims hs)
  have a2 : Sims Rel vecLane vecLane := Sims.mapErr (laneIdx_sims hs)
  have a3 := vecBytes_sims hs
  unfold parseFD; sims

theorem parseSimple_sims (hs : Sim Rel) {op : UInt8} : Sims Rel (parseSimple op) (parseSimple op) := by
  have a1 := list_sims hs (valType_sims hs)
  have a2 := tagIdx_sims hs
  have a3 := list_sims hs (labelIdx_sims hs)
  have a4 := funcIdx_sims hs
  have a5 := memarg_sims hs
  have a6 := u32_sims hs
  have a7 := i32_sims hs
  have a8 := i64_sims hs
  have a9 := f32_sims hs
  have a10 := f64_sims hs
  have b1 : Sims Rel ctlLabel ctlLabel := Sims.mapErr (labelIdx_sims hs)
  have b2 : Sims Rel ctlFunc ctlFunc := Sims.mapErr (funcIdx_sims hs)
  have b3 : Sims Rel ctlType ctlType := Sims.mapErr (typeIdx_sims hs)
  have b4 : Sims Rel ctlTable ctlTable := Sims.mapErr (tableIdx_sims hs)
  have b5 : Sims Rel refHeap refHeap := Sims.mapErr (heapType_sims hs)
  have b6 : Sims Rel varLocal varLocal := Sims.mapErr (localIdx_sims hs)
  have b7 : Sims Rel varGlobal varGlobal := Sims.mapErr (globalIdx_sims hs)
  have b8 : Sims Rel tabTable tabTable := Sims.mapErr (tableIdx_sims hs)
  have b9 : Sims Rel memMem memMem := Sims.mapErr (memIdx_sims hs)
  unfold parseSimple
  repeat' (first | simstep | exact parseFB_sims hs | exact parseFC_sims hs | exact parseFD_sims hs | split)

theorem parseSeq_sims {p : Dec R ParseError ParseResult} {p' : Dec S ParseError ParseResult}
    (hp : Sims Rel p p') : ∀ n n' b acc, n ≤ n' → Sims Rel (parseSeq p n b acc) (parseSeq p' n' b acc)
  | 0, _, _, _, _ => Sims.fuel
  | n + 1, 0, _, _, h => absurd h (by omega)
  | n + 1, n' + 1, b, acc, h => by
    refine Sims.bind hp fun v => ?_
    cases v with
    | Instruction i => exact parseSeq_sims hp n n' b _ (by omega)
    | End => exact Sims.pure
    | Else => exact Sims.ite Sims.pure Sims.err

theorem parse_sims (hs : Sim Rel) : ∀ n n', n ≤ n' → Sims Rel (parse n) (parse n')
  | 0, _, _ => Sims.fuel
  | n + 1, 0, h => absurd h (by omega)
  | n + 1, n' + 1, h => by
    have ih := fun b acc => parseSeq_sims (parse_sims hs n n' (by omega)) n n' b acc (by omega)
    refine Sims.bind (Sims.mapErr (Sims.readExact hs)) fun v => ?_
    split
    · refine Sims.ite Sims.pure (Sims.ite Sims.pure (Sims.ite ?_ (Sims.ite ?_ ?_)))
      · refine Sims.bind (Sims.mapErr (blockType_sims hs)) fun bt => Sims.bind (ih _ _) fun x => ?_
        refine Sims.ite Sims.pure (Sims.ite Sims.pure (Sims.ite ?_ Sims.panic))
        split
        · exact Sims.pure
        · exact Sims.bind (ih _ _) fun x => Sims.pure
        · exact Sims.panic
      · refine Sims.bind (Sims.mapErr (blockType_sims hs)) fun bt =>
          Sims.bind (Sims.mapErr (list_sims hs (catch_sims hs))) fun c =>
          Sims.bind (ih _ _) fun x => Sims.pure
      · exact Sims.bind (parseSimple_sims hs) fun _ => Sims.pure
    · exact Sims.panic

theorem exprLoop_sims {p : Dec R ParseError ParseResult} {p' : Dec S ParseError ParseResult}
    (hp : Sims Rel p p') : ∀ n n' b e, n ≤ n' →
    Sims Rel (decodeExprLoop p n b e) (decodeExprLoop p' n' b e)
  | 0, _, _, _, _ => Sims.fuel
  | n + 1, 0, _, _, h => absurd h (by omega)
  | n + 1, n' + 1, b, e, h => by
    refine Sims.bind (Sims.mapErr hp) fun v => ?_
    cases v with
    | Instruction i => exact exprLoop_sims hp n n' _ _ (by omega)
    | End => exact Sims.pure
    | Else => exact Sims.err

theorem expr_sims (hs : Sim Rel) : Sims Rel decodeExpr decodeExpr :=
  Sims.budget hs (d := fun n => decodeExprLoop (parse n) n [] false)
    (d' := fun n => decodeExprLoop (parse n) n [] false)
    (fun _ => exprLoop_sims (parse_sims hs _ _ (Nat.le_refl _)) _ _ _ _ (Nat.le_refl _))
    (fun _ _ h => exprLoop_sims (parse_sims Sim.eq _ _ h) _ _ _ _ h)

theorem expr'_sims (hs : Sim Rel) : Sims Rel decodeExpr' decodeExpr' :=
  Sims.bind (expr_sims hs) fun ⟨_, _⟩ => Sims.pure

/-! ### Sections -/

theorem codeLocal_sims (hs : Sim Rel) {st : UInt64} :
    Sims Rel (parseCodeLocal st) (parseCodeLocal st) := by
  have h1 := u32_sims hs
  have h2 := valType_sims hs
  unfold parseCodeLocal; sims

theorem codeBody_sims (hs : Sim Rel) : Sims Rel parseCodeBody parseCodeBody :=
  Sims.bind (Sims.mapErr (listS_sims hs fun _ => codeLocal_sims hs)) fun ⟨_, _⟩ =>
    Sims.bind (Sims.mapErr (expr_sims hs)) fun ⟨_, _⟩ => Sims.pure

theorem code_sims (hs : Sim Rel) : Sims Rel parseCode parseCode :=
  Sims.bind (Sims.mapErr (u32_sims hs)) fun _ =>
    Sims.bind (Sims.withTake (codeBody_sims hs.take)) fun ⟨⟨_, _, _⟩, _⟩ => Sims.ite Sims.err Sims.pure

theorem custom_sims (hs : Sim Rel) : Sims Rel decodeSectionCustom decodeSectionCustom :=
  Sims.bind (Sims.mapErr (name_sims hs)) fun _ =>
    Sims.bind (Sims.mapErr (Sims.readToEnd hs)) fun _ => Sims.pure

theorem data_sims (hs : Sim Rel) : Sims Rel parseData parseData := by
  have h1 := u32_sims hs
  have h2 := expr'_sims hs
  have h3 := byteVec_sims hs
  have h4 := memIdx_sims hs
  unfold parseData; sims

theorem elemKind_sims (hs : Sim Rel) : Sims Rel parseElemKind parseElemKind := by
  unfold parseElemKind; sims

theorem elem_sims (hs : Sim Rel) : Sims Rel parseElem parseElem := by
  have h1 := u32_sims hs
  have h2 := expr'_sims hs
  have h4 := tableIdx_sims hs
  have h5 := refType_sims hs
  have h6 : Sims Rel elemFuncs elemFuncs := Sims.mapErr (list_sims hs (funcIdx_sims hs))
  have h7 : Sims Rel elemExprs elemExprs := Sims.mapErr (list_sims hs h2)
  have h8 := elemKind_sims hs
  unfold parseElem; sims

theorem externIdx_sims {b : UInt8} {n : UInt32} :
    Sims Rel (ExternIdx.from b n) (ExternIdx.from b n) := by
  unfold ExternIdx.from; sims

theorem export_sims (hs : Sim Rel) : Sims Rel parseExport parseExport :=
  Sims.bind (Sims.mapErr (name_sims hs)) fun _ => Sims.bind (Sims.mapErr (Sims.readByte hs)) fun _ =>
    Sims.bind (Sims.mapErr (u32_sims hs)) fun _ => Sims.bind (Sims.mapErr externIdx_sims) fun _ =>
      Sims.pure

theorem import_sims (hs : Sim Rel) : Sims Rel parseImport parseImport := by
  have h1 := name_sims hs
  have h2 := externType_sims hs
  unfold parseImport; sims

theorem global_sims (hs : Sim Rel) : Sims Rel parseGlobal parseGlobal := by
  have h1 := expr'_sims hs
  have h2 := globalType_sims hs
  unfold parseGlobal; sims

theorem table_sims (hs : Sim Rel) : Sims Rel decodeTable decodeTable := by
  have h1 := expr'_sims hs
  have h2 := tableType_sims hs
  have h3 := tableType_sims hs.chain
  unfold decodeTable; sims

theorem fillFuncs_sims : ∀ codes i funcs enc,
    Sims Rel (fillFuncs codes i funcs enc) (fillFuncs codes i funcs enc)
  | [], _, _, _ => Sims.pure
  | c :: cs, i, funcs, enc => by
    unfold fillFuncs
    split
    · exact Sims.panic
    · exact fillFuncs_sims cs _ _ _

theorem sectionBody_sims (hs : Sim Rel) {k : SectionKind} {st : LoopState} :
    Sims Rel (decodeSectionBody k st) (decodeSectionBody k st) := by
  cases k with
  | Custom => exact Sims.bind (Sims.mapErr (custom_sims hs)) fun _ => Sims.pure
  | «Type» => exact Sims.bind (Sims.mapErr (Sims.mapErr (list_sims hs (recType_sims hs)))) fun _ => Sims.pure
  | Import => exact Sims.bind (Sims.mapErr (Sims.mapErr (list_sims hs (import_sims hs)))) fun _ => Sims.pure
  | Function => exact Sims.bind (Sims.mapErr (Sims.mapErr (list_sims hs (typeIdx_sims hs)))) fun _ => Sims.pure
  | Table => exact Sims.bind (Sims.mapErr (Sims.mapErr (list_sims hs (table_sims hs)))) fun _ => Sims.pure
  | Memory => exact Sims.bind (Sims.mapErr (Sims.mapErr (list_sims hs (memType_sims hs)))) fun _ => Sims.pure
  | Tag => exact Sims.bind (Sims.mapErr (Sims.mapErr (list_sims hs (tagType_sims hs)))) fun _ => Sims.pure
  | Global => exact Sims.bind (Sims.mapErr (Sims.mapErr (list_sims hs (global_sims hs)))) fun _ => Sims.pure
  | Export => exact Sims.bind (Sims.mapErr (Sims.mapErr (list_sims hs (export_sims hs)))) fun _ => Sims.pure
  | Start => exact Sims.bind (Sims.mapErr (Sims.mapErr (funcIdx_sims hs))) fun _ => Sims.pure
  | Element => exact Sims.bind (Sims.mapErr (Sims.mapErr (list_sims hs (elem_sims hs)))) fun _ => Sims.pure
  | DataCount => exact Sims.bind (Sims.mapErr (Sims.mapErr (u32_sims hs))) fun _ => Sims.pure
  | Code =>
    refine Sims.bind (Sims.mapErr (Sims.mapErr (list_sims hs (code_sims hs)))) fun codes => Sims.ite Sims.err ?_
    exact Sims.bind (fillFuncs_sims _ _ _ _) fun ⟨_, _⟩ => Sims.pure
  | Data =>
    refine Sims.bind (Sims.mapErr (Sims.mapErr (list_sims hs (data_sims hs)))) fun datas => ?_
    split
    · exact Sims.ite Sims.err Sims.pure
    · exact Sims.pure

theorem section_sims (hs : Sim Rel) {h : SectionHeader} {st : LoopState} :
    Sims Rel (decodeSection h st) (decodeSection h st) := by
  have h1 : Sims Rel (st.module.validateSectionKindExpected h.kind)
      (st.module.validateSectionKindExpected h.kind) := by
    unfold Module.validateSectionKindExpected; sims
  exact Sims.bind h1 fun _ => Sims.bind (Sims.withTake (sectionBody_sims hs.take)) fun ⟨_, _⟩ =>
    Sims.ite Sims.err Sims.pure

theorem headerRest_sims (hs : Sim Rel) {b : UInt8} :
    Sims Rel (sectionHeaderRest b) (sectionHeaderRest b) := by
  have h1 := u32_sims hs
  unfold sectionHeaderRest; sims

theorem header_sims (hs : Sim Rel) : Sims Rel decodeSectionHeader decodeSectionHeader := by
  intro r res r' s' h hn hr
  simp only [decodeSectionHeader] at h ⊢
  generalize hd1 : readByte r = o at h
  obtain ⟨o1, r1⟩ := o
  cases o1 with
  | ok v =>
    obtain ⟨s1, h1, h2⟩ := headerRest_sims hs _ _ _ _ h hn hr
    obtain ⟨s, h3, h4⟩ := Sims.readByte hs _ _ _ _ hd1 (by simp) h1
    exact ⟨s, h3, by rw [h4]; exact h2⟩
  | err e =>
    simp only at h
    split at h <;> rename_i he <;> cases h <;>
    · obtain ⟨s, h3, h4⟩ := Sims.readByte hs _ _ _ _ hd1 (by simp) hr
      exact ⟨s, h3, by rw [h4]; simp [he]⟩
  | panic =>
    cases h
    obtain ⟨s, h3, h4⟩ := Sims.readByte hs _ _ _ _ hd1 (by simp) hr
    exact ⟨s, h3, by rw [h4]⟩
  | fuel => cases h; exact absurd rfl hn

theorem loop_sims (hs : Sim Rel) : ∀ n n' st, n ≤ n' → Sims Rel (sectionLoop n st) (sectionLoop n' st)
  | 0, _, _, _ => Sims.fuel
  | n + 1, 0, _, h => absurd h (by omega)
  | n + 1, n' + 1, st, h => by
    refine Sims.bind (Sims.mapErr (header_sims hs)) fun h => ?_
    cases h with
    | none => exact Sims.pure
    | some h => exact Sims.bind (section_sims hs) fun st => loop_sims hs n n' st (by omega)

theorem preamble_sims (hs : Sim Rel) : Sims Rel parsePreamble parsePreamble := by
  unfold parsePreamble; sims

theorem finalChecks_sims {st : LoopState} : Sims Rel (finalChecks st) (finalChecks st) := by
  unfold finalChecks; sims

theorem module_sims (hs : Sim Rel) : Sims Rel decodeModule decodeModule :=
  Sims.budget hs
    (d := fun n => do
      parsePreamble.mapErr DecodeModuleError.ParsePreamble
      let st ← sectionLoop n ⟨Module.default, false, false⟩
      finalChecks st)
    (d' := fun n => do
      parsePreamble.mapErr DecodeModuleError.ParsePreamble
      let st ← sectionLoop n ⟨Module.default, false, false⟩
      finalChecks st)
    (fun _ => Sims.bind (Sims.mapErr (preamble_sims hs)) fun _ =>
      Sims.bind (loop_sims hs _ _ _ (Nat.le_refl _)) fun _ => finalChecks_sims)
    (fun _ _ h => Sims.bind (Sims.mapErr (preamble_sims Sim.eq)) fun _ =>
      Sims.bind (loop_sims Sim.eq _ _ _ h) fun _ => finalChecks_sims)

end Wadec
