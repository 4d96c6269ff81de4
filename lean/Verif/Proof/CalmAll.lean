import Verif.Proof.Calm

/-! `Calm` for every decoding function of the model (C57). -/

namespace Wadec

variable {R ε ε' α β σ : Type} [Read R] {Clean Ok : R → Prop}

/-! ### Integers, indices, floats -/

theorem u32Loop_calm (hr : Watched Clean Ok) : ∀ n i res sh,
    Calm Clean Ok (decodeU32Loop n i res sh)
  | 0, _, _, _ => (Calm.err hr)
  | n + 1, i, res, sh => by
    refine Calm.bind (Calm.mapErr (Calm.readByte hr)) fun b => ?_
    refine Calm.ite (Calm.panic hr) (Calm.ite ?_ (Calm.ite (Calm.panic hr) (u32Loop_calm hr _ _ _ _)))
    calm

theorem u64Loop_calm (hr : Watched Clean Ok) : ∀ n i res sh,
    Calm Clean Ok (decodeU64Loop n i res sh)
  | 0, _, _, _ => (Calm.err hr)
  | n + 1, i, res, sh => by
    refine Calm.bind (Calm.mapErr (Calm.readByte hr)) fun b => ?_
    refine Calm.ite (Calm.panic hr) (Calm.ite ?_ (Calm.ite (Calm.panic hr) (u64Loop_calm hr _ _ _ _)))
    calm

theorem i32Loop_calm (hr : Watched Clean Ok) : ∀ n res sh,
    Calm Clean Ok (decodeI32Loop n res sh)
  | 0, _, _ => (Calm.err hr)
  | n + 1, res, sh => by
    refine Calm.bind (Calm.mapErr (Calm.readByte hr)) fun b => ?_
    refine Calm.ite (Calm.panic hr) (Calm.ite (Calm.panic hr) (Calm.ite ?_ (i32Loop_calm hr _ _ _)))
    exact Calm.ite (Calm.panic hr) (Calm.ite (Calm.err hr) (Calm.ite (Calm.pure hr) (Calm.panic hr)))

theorem i64Loop_calm (hr : Watched Clean Ok) : ∀ n res sh,
    Calm Clean Ok (decodeI64Loop n res sh)
  | 0, _, _ => (Calm.err hr)
  | n + 1, res, sh => by
    refine Calm.bind (Calm.mapErr (Calm.readByte hr)) fun b => ?_
    refine Calm.ite (Calm.panic hr) (Calm.ite (Calm.panic hr) (Calm.ite ?_ (i64Loop_calm hr _ _ _)))
    exact Calm.ite (Calm.ite (Calm.err hr) (Calm.ite (Calm.err hr) (Calm.pure hr))) (Calm.ite (Calm.pure hr) (Calm.pure hr))

theorem s33Loop_calm (hr : Watched Clean Ok) : ∀ n res sh,
    Calm Clean Ok (decodeS33Loop n res sh)
  | 0, _, _ => (Calm.err hr)
  | n + 1, res, sh => by
    refine Calm.bind (Calm.mapErr (Calm.readByte hr)) fun b => ?_
    refine Calm.ite (Calm.panic hr) (Calm.ite (Calm.panic hr) (Calm.ite ?_ (s33Loop_calm hr _ _ _)))
    exact Calm.ite (Calm.err hr) (Calm.ite (Calm.err hr) (Calm.ite (Calm.ite (Calm.panic hr) (Calm.pure hr)) (Calm.pure hr)))

theorem u32_calm (hr : Watched Clean Ok) : Calm Clean Ok decodeU32 := u32Loop_calm hr _ _ _ _
theorem u64_calm (hr : Watched Clean Ok) : Calm Clean Ok decodeU64 := u64Loop_calm hr _ _ _ _
theorem i32_calm (hr : Watched Clean Ok) : Calm Clean Ok decodeI32 := i32Loop_calm hr _ _ _
theorem i64_calm (hr : Watched Clean Ok) : Calm Clean Ok decodeI64 := i64Loop_calm hr _ _ _
theorem s33_calm (hr : Watched Clean Ok) : Calm Clean Ok decodeS33 := s33Loop_calm hr _ _ _

theorem typeIdx_calm (hr : Watched Clean Ok) : Calm Clean Ok TypeIdx.decode :=
  Calm.bind (Calm.mapErr (u32_calm hr)) fun _ => (Calm.pure hr)
theorem funcIdx_calm (hr : Watched Clean Ok) : Calm Clean Ok FuncIdx.decode :=
  Calm.bind (Calm.mapErr (u32_calm hr)) fun _ => (Calm.pure hr)
theorem tableIdx_calm (hr : Watched Clean Ok) : Calm Clean Ok TableIdx.decode :=
  Calm.bind (Calm.mapErr (u32_calm hr)) fun _ => (Calm.pure hr)
theorem memIdx_calm (hr : Watched Clean Ok) : Calm Clean Ok MemIdx.decode :=
  Calm.bind (Calm.mapErr (u32_calm hr)) fun _ => (Calm.pure hr)
theorem globalIdx_calm (hr : Watched Clean Ok) : Calm Clean Ok GlobalIdx.decode :=
  Calm.bind (Calm.mapErr (u32_calm hr)) fun _ => (Calm.pure hr)
theorem elemIdx_calm (hr : Watched Clean Ok) : Calm Clean Ok ElemIdx.decode :=
  Calm.bind (Calm.mapErr (u32_calm hr)) fun _ => (Calm.pure hr)
theorem dataIdx_calm (hr : Watched Clean Ok) : Calm Clean Ok DataIdx.decode :=
  Calm.bind (Calm.mapErr (u32_calm hr)) fun _ => (Calm.pure hr)
theorem localIdx_calm (hr : Watched Clean Ok) : Calm Clean Ok LocalIdx.decode :=
  Calm.bind (Calm.mapErr (u32_calm hr)) fun _ => (Calm.pure hr)
theorem labelIdx_calm (hr : Watched Clean Ok) : Calm Clean Ok LabelIdx.decode :=
  Calm.bind (Calm.mapErr (u32_calm hr)) fun _ => (Calm.pure hr)
theorem tagIdx_calm (hr : Watched Clean Ok) : Calm Clean Ok TagIdx.decode :=
  Calm.bind (Calm.mapErr (u32_calm hr)) fun _ => (Calm.pure hr)

theorem f32_calm (hr : Watched Clean Ok) : Calm Clean Ok decodeF32 :=
  Calm.bind (Calm.mapErr (Calm.readExact hr)) fun _ => (Calm.pure hr)
theorem f64_calm (hr : Watched Clean Ok) : Calm Clean Ok decodeF64 :=
  Calm.bind (Calm.mapErr (Calm.readExact hr)) fun _ => (Calm.pure hr)

/-! ### Lists, byte vectors, names -/

theorem listLoop_calm (hr : Watched Clean Ok) {f : σ → Dec R ε (α × σ)}
    (hf : ∀ st, Calm Clean Ok (f st)) :
    ∀ n i st items, Calm Clean Ok (decodeListLoop f n i st items)
  | 0, _, _, _ => (Calm.pure hr)
  | n + 1, i, st, items =>
    Calm.bind (Calm.mapErr (hf st)) fun ⟨_, _⟩ => listLoop_calm hr hf n _ _ _

theorem listS_calm (hr : Watched Clean Ok) {f : σ → Dec R ε (α × σ)} {st : σ}
    (hf : ∀ st, Calm Clean Ok (f st)) : Calm Clean Ok (decodeListS f st) :=
  Calm.bind (Calm.mapErr (u32_calm hr)) fun _ => Calm.bind (Calm.reserve hr) fun _ =>
    listLoop_calm hr hf _ _ _ _

theorem list_calm (hr : Watched Clean Ok) {f : Dec R ε α} (hf : Calm Clean Ok f) :
    Calm Clean Ok (decodeList f) :=
  Calm.bind (listS_calm hr fun _ => Calm.bind hf fun _ => (Calm.pure hr)) fun ⟨_, _⟩ => (Calm.pure hr)

theorem byteVec_calm (hr : Watched Clean Ok) : Calm Clean Ok decodeByteVector :=
  Calm.bind (Calm.mapErr (u32_calm hr)) fun _ => Calm.bind (Calm.reserve hr) fun _ =>
    Calm.mapErr (Calm.readExact hr)

theorem name_calm (hr : Watched Clean Ok) : Calm Clean Ok decodeName := by
  refine Calm.bind (Calm.mapErr (byteVec_calm hr)) fun v => ?_
  calm

/-! ### Types -/

theorem i64ToU32_calm (hr : Watched Clean Ok) {x : Int64} : Calm (ε := ε) Clean Ok (i64ToU32 x) :=
  Calm.ite (Calm.pure hr) (Calm.panic hr)

theorem heapType_calm (hr : Watched Clean Ok) : Calm Clean Ok HeapType.decode := by
  have h1 := s33_calm hr.chain
  refine Calm.bind (Calm.mapErr (Calm.readByte hr)) fun b => ?_
  split
  · exact (Calm.pure hr)
  · refine Calm.bind (Calm.mapErr (Calm.withChain h1)) fun x => Calm.ite (Calm.err hr) ?_
    exact Calm.bind (i64ToU32_calm hr) fun _ => (Calm.pure hr)

theorem absHeapType_calm (hr : Watched Clean Ok) : Calm Clean Ok AbsHeapType.decode := by
  unfold AbsHeapType.decode; calm

theorem refType_calm (hr : Watched Clean Ok) : Calm Clean Ok RefType.decode := by
  have h1 := heapType_calm hr
  have h2 := absHeapType_calm hr.chain
  unfold RefType.decode; calm

theorem valType_calm (hr : Watched Clean Ok) : Calm Clean Ok ValType.decode := by
  have h1 := refType_calm hr.chain
  unfold ValType.decode; calm

theorem resultType_calm (hr : Watched Clean Ok) : Calm Clean Ok decodeResultType :=
  Calm.mapErr (list_calm hr (valType_calm hr))

theorem globalType_calm (hr : Watched Clean Ok) : Calm Clean Ok GlobalType.decode := by
  have h1 := valType_calm hr
  unfold GlobalType.decode; calm

theorem storageType_calm (hr : Watched Clean Ok) : Calm Clean Ok decodeStorageType := by
  have h1 := valType_calm hr.chain
  unfold decodeStorageType; calm

theorem fieldType_calm (hr : Watched Clean Ok) : Calm Clean Ok decodeFieldType := by
  have h1 := storageType_calm hr
  unfold decodeFieldType; calm

theorem compType_calm (hr : Watched Clean Ok) : Calm Clean Ok CompType.decode := by
  have h1 := fieldType_calm hr
  have h2 := list_calm hr h1
  have h3 := resultType_calm hr
  unfold CompType.decode; calm

theorem subType_calm (hr : Watched Clean Ok) : Calm Clean Ok SubType.decode := by
  have h1 := compType_calm hr
  have h2 := compType_calm hr.chain
  have h3 := list_calm hr (typeIdx_calm hr)
  unfold SubType.decode; calm

theorem recType_calm (hr : Watched Clean Ok) : Calm Clean Ok RecType.decode := by
  have h1 := list_calm hr (subType_calm hr)
  have h2 := subType_calm hr.chain
  unfold RecType.decode; calm

theorem limits_calm (hr : Watched Clean Ok) : Calm Clean Ok parseLimits := by
  have h1 := u64_calm hr
  unfold parseLimits parseLimitsRest; calm

theorem memType_calm (hr : Watched Clean Ok) : Calm Clean Ok parseMemType := by
  have h1 := limits_calm hr
  unfold parseMemType; calm

theorem tableType_calm (hr : Watched Clean Ok) : Calm Clean Ok TableType.decode := by
  have h1 := limits_calm hr
  have h2 := refType_calm hr
  unfold TableType.decode; calm

theorem tagType_calm (hr : Watched Clean Ok) : Calm Clean Ok TagType.decode := by
  have h1 := typeIdx_calm hr
  unfold TagType.decode; calm

theorem externType_calm (hr : Watched Clean Ok) : Calm Clean Ok ExternType.decode := by
  have h1 := typeIdx_calm hr
  have h2 := tableType_calm hr
  have h3 := memType_calm hr
  have h4 := globalType_calm hr
  have h5 := tagType_calm hr
  unfold ExternType.decode; calm

/-! ### Instructions -/

theorem memarg_calm (hr : Watched Clean Ok) : Calm Clean Ok Memarg.decode := by
  have h1 := u32_calm hr
  have h2 := u64_calm hr
  have h3 := memIdx_calm hr
  unfold Memarg.decode; calm

theorem laneIdx_calm (hr : Watched Clean Ok) : Calm Clean Ok LaneIdx.decode := by
  unfold LaneIdx.decode; calm

theorem blockTypeIndex_calm (hr : Watched Clean Ok) : Calm Clean Ok blockTypeIndex := by
  have h1 := s33_calm hr
  refine Calm.bind (Calm.mapErr h1) fun x => Calm.ite (Calm.err hr) ?_
  exact Calm.bind (i64ToU32_calm hr) fun _ => (Calm.pure hr)

/-- Without `0x63` and `0x64`, a value type is a single byte. -/
theorem valType_chain {b : UInt8} (h3 : b ≠ 0x63) (h4 : b ≠ 0x64) (r : R) :
    (ValType.decode (⟨[b], r⟩ : Chain R)).2.inner = r := by
  have hb : ∀ {R : Type} [Read R] (i : R), (AbsHeapType.decode (⟨[b], i⟩ : Chain R)).2.inner = i := by
    intro R _ i
    simp only [AbsHeapType.decode, Bind.bind, Dec.bind, Dec.mapErr, chain_readByte]
    generalize fromMarker AbsHeapType.markers b = o
    cases o <;> rfl
  have hr : ∀ {R : Type} [Read R] (i : R), (RefType.decode (⟨[b], i⟩ : Chain R)).2.inner = i := by
    intro R _ i
    simp only [RefType.decode, Bind.bind, Dec.bind, Dec.mapErr, chain_readByte, if_neg h3, if_neg h4,
      Dec.withChain]
    have := hb (⟨[], i⟩ : Chain R)
    generalize AbsHeapType.decode (⟨[b], ⟨[], i⟩⟩ : Chain (Chain R)) = o at this
    obtain ⟨o1, o2⟩ := o
    simp only at this
    cases o1 <;> simp only [this] <;> rfl
  simp only [ValType.decode, Bind.bind, Dec.bind, Dec.mapErr, chain_readByte]
  iterate 5 (split; · rfl)
  have := hr (⟨[], r⟩ : Chain R)
  show (((Dec.withChain b RefType.decode).mapErr DecodeValTypeError.DecodeRefType >>= fun rt =>
    Pure.pure (ValType.Ref rt) : Dec (Chain R) _ _) ⟨[], r⟩).2.inner = r
  simp only [Bind.bind, Dec.bind, Dec.mapErr, Dec.withChain]
  generalize RefType.decode (⟨[b], ⟨[], r⟩⟩ : Chain (Chain R)) = o at this
  obtain ⟨o1, o2⟩ := o
  simp only at this
  cases o1 <;> simp only [this] <;> rfl

/-- On `0x63` or `0x64` the type index is a single, negative byte. -/
theorem blockTypeIndex_chain {b : UInt8} (h : b = 0x63 ∨ b = 0x64) (r : R) :
    ∃ e c, blockTypeIndex (⟨[b], r⟩ : Chain R) = (.err e, c) ∧ c.inner = r := by
  rcases h with rfl | rfl <;>
  · simp only [blockTypeIndex, decodeS33, decodeS33Loop, Bind.bind, Dec.bind, Dec.mapErr, chain_readByte]
    exact ⟨_, _, rfl, rfl⟩

theorem blockType_calm (hr : Watched Clean Ok) : Calm Clean Ok BlockType.decode := by
  refine Calm.bind (Calm.mapErr (Calm.readByte hr)) fun b => Calm.ite (Calm.pure hr) ?_
  intro r g
  have hv := valType_calm hr.chain ⟨[b], r⟩ g
  have hc := valType_chain (b := b) (r := r)
  simp only [Dec.withChain, Dec.orElseDiscard]
  generalize ValType.decode (⟨[b], r⟩ : Chain R) = o at hv hc
  obtain ⟨o1, c⟩ := o
  cases o1 with
  | ok v => exact ⟨hv.1, fun _ _ => hv.2 v rfl⟩
  | err e =>
    by_cases hb : b = 0x63 ∨ b = 0x64
    · obtain ⟨e, c', h1, h2⟩ := blockTypeIndex_chain hb c
      simp only [h1]
      rw [h2]
      exact ⟨hv.1, fun _ h => by cases h⟩
    · have hc := hc (fun h => hb (.inl h)) (fun h => hb (.inr h))
      simp only at hc
      exact (blockTypeIndex_calm hr.chain.chain) ⟨[b], c⟩ (by simp only; rw [hc]; exact g)
  | panic => exact ⟨hv.1, fun _ h => by cases h⟩
  | fuel => exact ⟨hv.1, fun _ h => by cases h⟩

theorem catch_calm (hr : Watched Clean Ok) : Calm Clean Ok Catch.decode := by
  have h1 := tagIdx_calm hr
  have h2 := labelIdx_calm hr
  unfold Catch.decode; calm

theorem castop_calm (hr : Watched Clean Ok) : Calm Clean Ok decodeCastop := by
  unfold decodeCastop; calm

theorem vecBytes_calm (hr : Watched Clean Ok) : Calm Clean Ok vecBytes := by
  refine Calm.bind (Calm.mapErr (Calm.readExact hr)) fun v => ?_
  by_cases h : v.length = 16
  · simp only [dif_pos h]; exact (Calm.pure hr)
  · simp only [dif_neg h]; exact (Calm.panic hr)

theorem parseFB_calm (hr : Watched Clean Ok) {op : UInt32} : Calm Clean Ok (parseFB op) := by
  have a1 : Calm Clean Ok aggType := Calm.mapErr (typeIdx_calm hr)
  have a2 : Calm Clean Ok aggField := Calm.mapErr (u32_calm hr)
  have a3 : Calm Clean Ok aggLen := Calm.mapErr (u32_calm hr)
  have a4 : Calm Clean Ok aggData := Calm.mapErr (dataIdx_calm hr)
  have a5 : Calm Clean Ok aggElem := Calm.mapErr (elemIdx_calm hr)
  have a6 : Calm Clean Ok refHeap := Calm.mapErr (heapType_calm hr)
  have a7 : Calm Clean Ok ctlHeap := Calm.mapErr (heapType_calm hr)
  have a8 : Calm Clean Ok ctlLabel := Calm.mapErr (labelIdx_calm hr)
  have a9 := castop_calm hr
  unfold parseFB; calm

theorem parseFC_calm (hr : Watched Clean Ok) {op : UInt32} : Calm Clean Ok (parseFC op) := by
  have a1 : Calm Clean Ok memData := Calm.mapErr (dataIdx_calm hr)
  have a2 : Calm Clean Ok memMem := Calm.mapErr (memIdx_calm hr)
  have a3 : Calm Clean Ok tabElem := Calm.mapErr (elemIdx_calm hr)
  have a4 : Calm Clean Ok tabTable := Calm.mapErr (tableIdx_calm hr)
  unfold parseFC; calm

theorem parseFD_calm (hr : Watched Clean Ok) {op : UInt32} : Calm Clean Ok (parseFD op) := by
  have a1 : Calm Clean Ok vecMemarg := Calm.mapErr (memarg_calm hr)
  have a2 : Calm Clean Ok vecLane := Calm.mapErr (laneIdx_calm hr)
  have a3 := vecBytes_calm hr
  unfold parseFD; calm

theorem parseSimple_calm (hr : Watched Clean Ok) {op : UInt8} : Calm Clean Ok (parseSimple op) := by
  have a1 := list_calm hr (valType_calm hr)
  have a2 := tagIdx_calm hr
  have a3 := list_calm hr (labelIdx_calm hr)
  have a4 := funcIdx_calm hr
  have a5 := memarg_calm hr
  have a6 := u32_calm hr
  have a7 := i32_calm hr
  have a8 := i64_calm hr
  have a9 := f32_calm hr
  have a10 := f64_calm hr
  have b1 : Calm Clean Ok ctlLabel := Calm.mapErr (labelIdx_calm hr)
  have b2 : Calm Clean Ok ctlFunc := Calm.mapErr (funcIdx_calm hr)
  have b3 : Calm Clean Ok ctlType := Calm.mapErr (typeIdx_calm hr)
  have b4 : Calm Clean Ok ctlTable := Calm.mapErr (tableIdx_calm hr)
  have b5 : Calm Clean Ok refHeap := Calm.mapErr (heapType_calm hr)
  have b6 : Calm Clean Ok varLocal := Calm.mapErr (localIdx_calm hr)
  have b7 : Calm Clean Ok varGlobal := Calm.mapErr (globalIdx_calm hr)
  have b8 : Calm Clean Ok tabTable := Calm.mapErr (tableIdx_calm hr)
  have b9 : Calm Clean Ok memMem := Calm.mapErr (memIdx_calm hr)
  unfold parseSimple
  repeat' (first | calmstep | exact parseFB_calm hr | exact parseFC_calm hr | exact parseFD_calm hr | split)

theorem parseSeq_calm (hr : Watched Clean Ok) {p : Dec R ParseError ParseResult} (hp : Calm Clean Ok p) :
    ∀ n b acc, Calm Clean Ok (parseSeq p n b acc)
  | 0, _, _ => Calm.fuel hr
  | n + 1, b, acc => by
    refine Calm.bind hp fun v => ?_
    cases v with
    | Instruction i => exact parseSeq_calm hr hp n b _
    | End => exact (Calm.pure hr)
    | Else => exact Calm.ite (Calm.pure hr) (Calm.err hr)

theorem parse_calm (hr : Watched Clean Ok) : ∀ n, Calm Clean Ok (parse n)
  | 0 => Calm.fuel hr
  | n + 1 => by
    have ih := fun b acc => parseSeq_calm hr (parse_calm hr n) n b acc
    refine Calm.bind (Calm.mapErr (Calm.readExact hr)) fun v => ?_
    split
    · refine Calm.ite (Calm.pure hr) (Calm.ite (Calm.pure hr) (Calm.ite ?_ (Calm.ite ?_ ?_)))
      · refine Calm.bind (Calm.mapErr (blockType_calm hr)) fun bt => Calm.bind (ih _ _) fun x => ?_
        refine Calm.ite (Calm.pure hr) (Calm.ite (Calm.pure hr) (Calm.ite ?_ (Calm.panic hr)))
        split
        · exact (Calm.pure hr)
        · exact Calm.bind (ih _ _) fun x => (Calm.pure hr)
        · exact (Calm.panic hr)
      · exact Calm.bind (Calm.mapErr (blockType_calm hr)) fun bt =>
          Calm.bind (Calm.mapErr (list_calm hr (catch_calm hr))) fun c =>
          Calm.bind (ih _ _) fun x => (Calm.pure hr)
      · exact Calm.bind (parseSimple_calm hr) fun _ => (Calm.pure hr)
    · exact (Calm.panic hr)

theorem exprLoop_calm (hr : Watched Clean Ok) {p : Dec R ParseError ParseResult} (hp : Calm Clean Ok p) :
    ∀ n b e, Calm Clean Ok (decodeExprLoop p n b e)
  | 0, _, _ => Calm.fuel hr
  | n + 1, b, e => by
    refine Calm.bind (Calm.mapErr hp) fun v => ?_
    cases v with
    | Instruction i => exact exprLoop_calm hr hp n _ _
    | End => exact (Calm.pure hr)
    | Else => exact (Calm.err hr)

theorem expr_calm (hr : Watched Clean Ok) : Calm Clean Ok decodeExpr :=
  fun r g => exprLoop_calm hr (parse_calm hr _) _ _ _ r g

theorem expr'_calm (hr : Watched Clean Ok) : Calm Clean Ok decodeExpr' :=
  Calm.bind (expr_calm hr) fun ⟨_, _⟩ => (Calm.pure hr)

/-! ### Sections -/

theorem codeLocal_calm (hr : Watched Clean Ok) {st : UInt64} :
    Calm Clean Ok (parseCodeLocal st) := by
  have h1 := u32_calm hr
  have h2 := valType_calm hr
  unfold parseCodeLocal; calm

theorem codeBody_calm (hr : Watched Clean Ok) : Calm Clean Ok parseCodeBody :=
  Calm.bind (Calm.mapErr (listS_calm hr fun _ => codeLocal_calm hr)) fun ⟨_, _⟩ =>
    Calm.bind (Calm.mapErr (expr_calm hr)) fun ⟨_, _⟩ => (Calm.pure hr)

theorem code_calm (hr : Watched Clean Ok) : Calm Clean Ok parseCode :=
  Calm.bind (Calm.mapErr (u32_calm hr)) fun _ =>
    Calm.bind (Calm.withTake (codeBody_calm hr.take)) fun ⟨⟨_, _, _⟩, _⟩ => Calm.ite (Calm.err hr) (Calm.pure hr)

/-- A custom section whose contents are cut short leaves a limit. -/
theorem custom_calm (hr : Watched Clean Ok) (t : Take R) (g : Clean t.inner) :
    Ok (decodeSectionCustom t).2.inner ∧
    ∀ v, (decodeSectionCustom t).1 = .ok v →
      Clean (decodeSectionCustom t).2.inner ∨ (decodeSectionCustom t).2.limit ≠ 0 := by
  have h1 := Calm.mapErr (f := DecodeCustomSectionError.DecodeName) (name_calm hr.take) t g
  simp only [decodeSectionCustom, Bind.bind, Dec.bind]
  generalize Dec.mapErr DecodeCustomSectionError.DecodeName decodeName t = o at h1
  obtain ⟨o1, t1⟩ := o
  cases o1 with
  | ok v =>
    have h2 := readToEndLoop_calm hr (Read.weight t1 + 1) [] t1 (h1.2 v rfl)
    simp only [Dec.mapErr, readToEnd]
    generalize readToEndLoop (Read.weight t1 + 1) [] t1 = o at h2
    obtain ⟨o2, t2⟩ := o
    cases o2 with
    | ok v => exact ⟨h2.1, fun _ _ => h2.2 v rfl⟩
    | _ => exact ⟨h2.1, fun _ h => by cases h⟩
  | _ => exact ⟨h1.1, fun _ h => by cases h⟩

theorem data_calm (hr : Watched Clean Ok) : Calm Clean Ok parseData := by
  have h1 := u32_calm hr
  have h2 := expr'_calm hr
  have h3 := byteVec_calm hr
  have h4 := memIdx_calm hr
  unfold parseData; calm

theorem elemKind_calm (hr : Watched Clean Ok) : Calm Clean Ok parseElemKind := by
  unfold parseElemKind; calm

theorem elem_calm (hr : Watched Clean Ok) : Calm Clean Ok parseElem := by
  have h1 := u32_calm hr
  have h2 := expr'_calm hr
  have h4 := tableIdx_calm hr
  have h5 := refType_calm hr
  have h6 : Calm Clean Ok elemFuncs := Calm.mapErr (list_calm hr (funcIdx_calm hr))
  have h7 : Calm Clean Ok elemExprs := Calm.mapErr (list_calm hr h2)
  have h8 := elemKind_calm hr
  unfold parseElem; calm

theorem externIdx_calm (hr : Watched Clean Ok) {b : UInt8} {n : UInt32} :
    Calm Clean Ok (ExternIdx.from b n) := by
  unfold ExternIdx.from; calm

theorem export_calm (hr : Watched Clean Ok) : Calm Clean Ok parseExport :=
  Calm.bind (Calm.mapErr (name_calm hr)) fun _ => Calm.bind (Calm.mapErr (Calm.readByte hr)) fun _ =>
    Calm.bind (Calm.mapErr (u32_calm hr)) fun _ => Calm.bind (Calm.mapErr (externIdx_calm hr)) fun _ =>
      (Calm.pure hr)

theorem import_calm (hr : Watched Clean Ok) : Calm Clean Ok parseImport := by
  have h1 := name_calm hr
  have h2 := externType_calm hr
  unfold parseImport; calm

theorem global_calm (hr : Watched Clean Ok) : Calm Clean Ok parseGlobal := by
  have h1 := expr'_calm hr
  have h2 := globalType_calm hr
  unfold parseGlobal; calm

theorem table_calm (hr : Watched Clean Ok) : Calm Clean Ok decodeTable := by
  have h1 := expr'_calm hr
  have h2 := tableType_calm hr
  have h3 := tableType_calm hr.chain
  unfold decodeTable; calm

theorem fillFuncs_calm (hr : Watched Clean Ok) : ∀ codes i funcs enc,
    Calm Clean Ok (fillFuncs codes i funcs enc)
  | [], _, _, _ => (Calm.pure hr)
  | c :: cs, i, funcs, enc => by
    unfold fillFuncs
    split
    · exact (Calm.panic hr)
    · exact fillFuncs_calm hr cs _ _ _

theorem sectionBody_calm (hr : Watched Clean Ok) {k : SectionKind} {st : LoopState} :
    k ≠ .Custom → Calm Clean Ok (decodeSectionBody k st) := by
  intro hk
  cases k with
  | Custom => exact absurd rfl hk
  | «Type» => exact Calm.bind (Calm.mapErr (Calm.mapErr (list_calm hr (recType_calm hr)))) fun _ => (Calm.pure hr)
  | Import => exact Calm.bind (Calm.mapErr (Calm.mapErr (list_calm hr (import_calm hr)))) fun _ => (Calm.pure hr)
  | Function => exact Calm.bind (Calm.mapErr (Calm.mapErr (list_calm hr (typeIdx_calm hr)))) fun _ => (Calm.pure hr)
  | Table => exact Calm.bind (Calm.mapErr (Calm.mapErr (list_calm hr (table_calm hr)))) fun _ => (Calm.pure hr)
  | Memory => exact Calm.bind (Calm.mapErr (Calm.mapErr (list_calm hr (memType_calm hr)))) fun _ => (Calm.pure hr)
  | Tag => exact Calm.bind (Calm.mapErr (Calm.mapErr (list_calm hr (tagType_calm hr)))) fun _ => (Calm.pure hr)
  | Global => exact Calm.bind (Calm.mapErr (Calm.mapErr (list_calm hr (global_calm hr)))) fun _ => (Calm.pure hr)
  | Export => exact Calm.bind (Calm.mapErr (Calm.mapErr (list_calm hr (export_calm hr)))) fun _ => (Calm.pure hr)
  | Start => exact Calm.bind (Calm.mapErr (Calm.mapErr (funcIdx_calm hr))) fun _ => (Calm.pure hr)
  | Element => exact Calm.bind (Calm.mapErr (Calm.mapErr (list_calm hr (elem_calm hr)))) fun _ => (Calm.pure hr)
  | DataCount => exact Calm.bind (Calm.mapErr (Calm.mapErr (u32_calm hr))) fun _ => (Calm.pure hr)
  | Code =>
    refine Calm.bind (Calm.mapErr (Calm.mapErr (list_calm hr (code_calm hr)))) fun codes => Calm.ite (Calm.err hr) ?_
    exact Calm.bind (fillFuncs_calm hr _ _ _ _) fun ⟨_, _⟩ => (Calm.pure hr)
  | Data =>
    refine Calm.bind (Calm.mapErr (Calm.mapErr (list_calm hr (data_calm hr)))) fun datas => ?_
    split
    · exact Calm.ite (Calm.err hr) (Calm.pure hr)
    · exact (Calm.pure hr)

theorem custom_taken (hr : Watched Clean Ok) (n : Nat) (st : LoopState) (r : R) (g : Clean r) :
    Ok (Dec.withTake n (decodeSectionBody .Custom st) r).2 ∧
    ∀ v l, (Dec.withTake n (decodeSectionBody .Custom st) r).1 = .ok (v, l) →
      Clean (Dec.withTake n (decodeSectionBody .Custom st) r).2 ∨ l ≠ 0 := by
  have h2 := custom_calm hr ⟨n, r⟩ g
  simp only [Dec.withTake, decodeSectionBody, Bind.bind, Dec.bind, Dec.mapErr]
  generalize decodeSectionCustom (⟨n, r⟩ : Take R) = o at h2
  obtain ⟨o1, t⟩ := o
  cases o1 with
  | ok v =>
    refine ⟨h2.1, fun v' l h => ?_⟩
    cases h
    exact h2.2 v rfl
  | _ => exact ⟨h2.1, fun _ _ h => by cases h⟩

theorem section_calm (hr : Watched Clean Ok) {h : SectionHeader} {st : LoopState} :
    Calm Clean Ok (decodeSection h st) := by
  have h1 : Calm Clean Ok (st.module.validateSectionKindExpected h.kind) := by
    unfold Module.validateSectionKindExpected; calm
  by_cases hk : h.kind = .Custom
  · refine Calm.bind h1 fun _ => ?_
    intro r g
    rw [hk]
    have h3 := custom_taken hr h.size.toNat st r g
    generalize hb : Dec.withTake (R := R) h.size.toNat (decodeSectionBody .Custom st) = d at h3
    simp only [Bind.bind, Dec.bind]
    generalize d r = o at h3
    obtain ⟨o1, r1⟩ := o
    cases o1 with
    | ok v =>
      obtain ⟨v, l⟩ := v
      by_cases hl : l = 0
      · subst hl
        exact ⟨h3.1, fun _ _ => (h3.2 v 0 rfl).resolve_right (by simp)⟩
      · simp only [if_pos hl]
        exact ⟨h3.1, fun _ h => by cases h⟩
    | _ => exact ⟨h3.1, fun _ h => by cases h⟩
  · exact Calm.bind h1 fun _ => Calm.bind (Calm.withTake (sectionBody_calm hr.take hk)) fun ⟨_, _⟩ =>
      Calm.ite (Calm.err hr) (Calm.pure hr)

theorem headerRest_calm (hr : Watched Clean Ok) {b : UInt8} :
    Calm Clean Ok (sectionHeaderRest b) := by
  have h1 := u32_calm hr
  unfold sectionHeaderRest; calm

theorem header_calm (hr : Watched Clean Ok) (r : R) (g : Clean r) :
    Ok (decodeSectionHeader r).2 ∧
    ∀ h, (decodeSectionHeader r).1 = .ok (some h) → Clean (decodeSectionHeader r).2 := by
  have h1 := Calm.readByte hr r g
  simp only [decodeSectionHeader]
  generalize readByte r = o at h1
  obtain ⟨o1, r1⟩ := o
  cases o1 with
  | ok v =>
    have := headerRest_calm hr (b := v) r1 (h1.2 v rfl)
    exact ⟨this.1, fun h => this.2 (some h)⟩
  | err e => simp only; split <;> exact ⟨h1.1, fun _ h => by cases h⟩
  | _ => exact ⟨h1.1, fun _ h => by cases h⟩

/-- The loop ends with the header that is not there; nothing is read after that. -/
theorem loop_calm (hr : Watched Clean Ok) : ∀ n st r, Clean r → Ok (sectionLoop n st r).2
  | 0, _, _, g => hr.ok g
  | n + 1, st, r, g => by
    have h1 := header_calm hr r g
    simp only [sectionLoop, Bind.bind, Dec.bind, Dec.mapErr]
    generalize decodeSectionHeader r = o at h1
    obtain ⟨o1, r1⟩ := o
    cases o1 with
    | ok v =>
      cases v with
      | none => exact h1.1
      | some h =>
        have h2 := section_calm hr (h := h) (st := st) r1 (h1.2 h rfl)
        simp only [Dec.bind]
        generalize decodeSection h st r1 = o at h2
        obtain ⟨o2, r2⟩ := o
        cases o2 with
        | ok st' => exact loop_calm hr n st' r2 (h2.2 _ rfl)
        | _ => exact h2.1
    | _ => exact h1.1

theorem preamble_calm (hr : Watched Clean Ok) : Calm Clean Ok parsePreamble := by
  unfold parsePreamble; calm

theorem finalChecks_state {st : LoopState} (r : R) : (finalChecks st r).2 = r := by
  unfold finalChecks
  split
  · rfl
  · split
    · rfl
    · split <;> rfl

theorem module_calm (hr : Watched Clean Ok) (r : R) (g : Clean r) : Ok (decodeModule r).2 := by
  have h1 := Calm.mapErr (f := DecodeModuleError.ParsePreamble) (preamble_calm hr) r g
  simp only [decodeModule, Bind.bind, Dec.bind]
  generalize Dec.mapErr DecodeModuleError.ParsePreamble parsePreamble r = o at h1
  obtain ⟨o1, r1⟩ := o
  cases o1 with
  | ok v =>
    have h2 := loop_calm hr (Read.weight r + 1) ⟨Module.default, false, false⟩ r1 (h1.2 _ rfl)
    simp only
    generalize sectionLoop (Read.weight r + 1) ⟨Module.default, false, false⟩ r1 = o at h2
    obtain ⟨o2, r2⟩ := o
    cases o2 with
    | ok st => simp only; rw [finalChecks_state]; exact h2
    | _ => exact h2
  | _ => exact h1.1

end Wadec
