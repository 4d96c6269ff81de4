import Verif.Proof.Duo
import Verif.Proof.Lamp

/-! `Duo` for every decoding function of the model (C80). -/

namespace Wadec

variable {R S ε ε' α β σ : Type} [Read R] [Read S] {c : Scene R S} [ErrInfo ε]

/-- A constructor around the error keeps what is known about it. -/
macro "dmap" t:term:max : term => `(Duo.mapErr (fun _ => rfl) (fun _ => rfl) $t)

/-! ### Integers, indices, floats -/

theorem u32Loop_duo (hc : c.Fair) : ∀ n i res sh,
    Duo c (decodeU32Loop n i res sh) (decodeU32Loop n i res sh)
  | 0, _, _, _ => (Duo.err rfl)
  | n + 1, i, res, sh => by
    refine Duo.bind (dmap (Duo.readByte hc)) fun b => ?_
    refine Duo.ite Duo.panic (Duo.ite ?_ (Duo.ite Duo.panic (u32Loop_duo hc _ _ _ _)))
    duo

theorem u64Loop_duo (hc : c.Fair) : ∀ n i res sh,
    Duo c (decodeU64Loop n i res sh) (decodeU64Loop n i res sh)
  | 0, _, _, _ => (Duo.err rfl)
  | n + 1, i, res, sh => by
    refine Duo.bind (dmap (Duo.readByte hc)) fun b => ?_
    refine Duo.ite Duo.panic (Duo.ite ?_ (Duo.ite Duo.panic (u64Loop_duo hc _ _ _ _)))
    duo

theorem i32Loop_duo (hc : c.Fair) : ∀ n res sh,
    Duo c (decodeI32Loop n res sh) (decodeI32Loop n res sh)
  | 0, _, _ => (Duo.err rfl)
  | n + 1, res, sh => by
    refine Duo.bind (dmap (Duo.readByte hc)) fun b => ?_
    refine Duo.ite Duo.panic (Duo.ite Duo.panic (Duo.ite ?_ (i32Loop_duo hc _ _ _)))
    exact Duo.ite Duo.panic (Duo.ite (Duo.err rfl) (Duo.ite Duo.pure Duo.panic))

theorem i64Loop_duo (hc : c.Fair) : ∀ n res sh,
    Duo c (decodeI64Loop n res sh) (decodeI64Loop n res sh)
  | 0, _, _ => (Duo.err rfl)
  | n + 1, res, sh => by
    refine Duo.bind (dmap (Duo.readByte hc)) fun b => ?_
    refine Duo.ite Duo.panic (Duo.ite Duo.panic (Duo.ite ?_ (i64Loop_duo hc _ _ _)))
    exact Duo.ite (Duo.ite (Duo.err rfl) (Duo.ite (Duo.err rfl) Duo.pure)) (Duo.ite Duo.pure Duo.pure)

theorem s33Loop_duo (hc : c.Fair) : ∀ n res sh,
    Duo c (decodeS33Loop n res sh) (decodeS33Loop n res sh)
  | 0, _, _ => (Duo.err rfl)
  | n + 1, res, sh => by
    refine Duo.bind (dmap (Duo.readByte hc)) fun b => ?_
    refine Duo.ite Duo.panic (Duo.ite Duo.panic (Duo.ite ?_ (s33Loop_duo hc _ _ _)))
    exact Duo.ite (Duo.err rfl) (Duo.ite (Duo.err rfl) (Duo.ite (Duo.ite Duo.panic Duo.pure) Duo.pure))

theorem u32_duo (hc : c.Fair) : Duo c decodeU32 decodeU32 := u32Loop_duo hc _ _ _ _
theorem u64_duo (hc : c.Fair) : Duo c decodeU64 decodeU64 := u64Loop_duo hc _ _ _ _
theorem i32_duo (hc : c.Fair) : Duo c decodeI32 decodeI32 := i32Loop_duo hc _ _ _
theorem i64_duo (hc : c.Fair) : Duo c decodeI64 decodeI64 := i64Loop_duo hc _ _ _
theorem s33_duo (hc : c.Fair) : Duo c decodeS33 decodeS33 := s33Loop_duo hc _ _ _

theorem typeIdx_duo (hc : c.Fair) : Duo c TypeIdx.decode TypeIdx.decode :=
  Duo.bind (dmap (u32_duo hc)) fun _ => Duo.pure
theorem funcIdx_duo (hc : c.Fair) : Duo c FuncIdx.decode FuncIdx.decode :=
  Duo.bind (dmap (u32_duo hc)) fun _ => Duo.pure
theorem tableIdx_duo (hc : c.Fair) : Duo c TableIdx.decode TableIdx.decode :=
  Duo.bind (dmap (u32_duo hc)) fun _ => Duo.pure
theorem memIdx_duo (hc : c.Fair) : Duo c MemIdx.decode MemIdx.decode :=
  Duo.bind (dmap (u32_duo hc)) fun _ => Duo.pure
theorem globalIdx_duo (hc : c.Fair) : Duo c GlobalIdx.decode GlobalIdx.decode :=
  Duo.bind (dmap (u32_duo hc)) fun _ => Duo.pure
theorem elemIdx_duo (hc : c.Fair) : Duo c ElemIdx.decode ElemIdx.decode :=
  Duo.bind (dmap (u32_duo hc)) fun _ => Duo.pure
theorem dataIdx_duo (hc : c.Fair) : Duo c DataIdx.decode DataIdx.decode :=
  Duo.bind (dmap (u32_duo hc)) fun _ => Duo.pure
theorem localIdx_duo (hc : c.Fair) : Duo c LocalIdx.decode LocalIdx.decode :=
  Duo.bind (dmap (u32_duo hc)) fun _ => Duo.pure
theorem labelIdx_duo (hc : c.Fair) : Duo c LabelIdx.decode LabelIdx.decode :=
  Duo.bind (dmap (u32_duo hc)) fun _ => Duo.pure
theorem tagIdx_duo (hc : c.Fair) : Duo c TagIdx.decode TagIdx.decode :=
  Duo.bind (dmap (u32_duo hc)) fun _ => Duo.pure

theorem f32_duo (hc : c.Fair) : Duo c decodeF32 decodeF32 :=
  Duo.bind (dmap (Duo.readExact hc)) fun _ => Duo.pure
theorem f64_duo (hc : c.Fair) : Duo c decodeF64 decodeF64 :=
  Duo.bind (dmap (Duo.readExact hc)) fun _ => Duo.pure

/-! ### Lists, byte vectors, names -/

theorem listLoop_duo {f : σ → Dec R ε (α × σ)} {f' : σ → Dec S ε (α × σ)}
    (hf : ∀ st, Duo c (f st) (f' st)) :
    ∀ n i st items, Duo c (decodeListLoop f n i st items) (decodeListLoop f' n i st items)
  | 0, _, _, _ => Duo.pure
  | n + 1, i, st, items =>
    Duo.bind (dmap (hf st)) fun ⟨_, _⟩ => listLoop_duo hf n _ _ _

theorem listS_duo (hc : c.Fair) {f : σ → Dec R ε (α × σ)} {f' : σ → Dec S ε (α × σ)} {st : σ}
    (hf : ∀ st, Duo c (f st) (f' st)) : Duo c (decodeListS f st) (decodeListS f' st) :=
  Duo.bind (dmap (u32_duo hc)) fun _ => Duo.bind (Duo.reserve hc) fun _ =>
    listLoop_duo hf _ _ _ _

theorem list_duo (hc : c.Fair) {f : Dec R ε α} {f' : Dec S ε α} (hf : Duo c f f') :
    Duo c (decodeList f) (decodeList f') :=
  Duo.bind (listS_duo hc fun _ => Duo.bind hf fun _ => Duo.pure) fun ⟨_, _⟩ => Duo.pure

theorem byteVec_duo (hc : c.Fair) : Duo c decodeByteVector decodeByteVector :=
  Duo.bind (dmap (u32_duo hc)) fun _ => Duo.bind (Duo.reserve hc) fun _ =>
    dmap (Duo.readExact hc)

theorem name_duo (hc : c.Fair) : Duo c decodeName decodeName := by
  refine Duo.bind (dmap (byteVec_duo hc)) fun v => ?_
  duo

/-! ### Types -/

theorem i64ToU32_duo {x : Int64} : Duo (ε := ε) c (i64ToU32 x) (i64ToU32 x) :=
  Duo.ite Duo.pure Duo.panic

theorem heapType_duo (hc : c.Fair) : Duo c HeapType.decode HeapType.decode := by
  have h1 := s33_duo hc.chain
  refine Duo.bind (dmap (Duo.readByte hc)) fun b => ?_
  split
  · exact Duo.pure
  · refine Duo.bind (dmap (Duo.withChain h1)) fun x => Duo.ite (Duo.err rfl) ?_
    exact Duo.bind i64ToU32_duo fun _ => Duo.pure

theorem absHeapType_duo (hc : c.Fair) : Duo c AbsHeapType.decode AbsHeapType.decode := by
  unfold AbsHeapType.decode; duo

theorem refType_duo (hc : c.Fair) : Duo c RefType.decode RefType.decode := by
  have h1 := heapType_duo hc
  have h2 := absHeapType_duo hc.chain
  unfold RefType.decode; duo

theorem valType_duo (hc : c.Fair) : Duo c ValType.decode ValType.decode := by
  have h1 := refType_duo hc.chain
  unfold ValType.decode; duo

theorem resultType_duo (hc : c.Fair) : Duo c decodeResultType decodeResultType :=
  dmap (list_duo hc (valType_duo hc))

theorem globalType_duo (hc : c.Fair) : Duo c GlobalType.decode GlobalType.decode := by
  have h1 := valType_duo hc
  unfold GlobalType.decode; duo

theorem storageType_duo (hc : c.Fair) : Duo c decodeStorageType decodeStorageType := by
  have h1 := valType_duo hc.chain
  unfold decodeStorageType; duo

theorem fieldType_duo (hc : c.Fair) : Duo c decodeFieldType decodeFieldType := by
  have h1 := storageType_duo hc
  unfold decodeFieldType; duo

theorem compType_duo (hc : c.Fair) : Duo c CompType.decode CompType.decode := by
  have h1 := fieldType_duo hc
  have h2 := list_duo hc h1
  have h3 := resultType_duo hc
  unfold CompType.decode; duo

theorem subType_duo (hc : c.Fair) : Duo c SubType.decode SubType.decode := by
  have h1 := compType_duo hc
  have h2 := compType_duo hc.chain
  have h3 := list_duo hc (typeIdx_duo hc)
  unfold SubType.decode; duo

theorem recType_duo (hc : c.Fair) : Duo c RecType.decode RecType.decode := by
  have h1 := list_duo hc (subType_duo hc)
  have h2 := subType_duo hc.chain
  unfold RecType.decode; duo

theorem limits_duo (hc : c.Fair) : Duo c parseLimits parseLimits := by
  have h1 := u64_duo hc
  unfold parseLimits parseLimitsRest; duo

theorem memType_duo (hc : c.Fair) : Duo c parseMemType parseMemType := by
  have h1 := limits_duo hc
  unfold parseMemType; duo

theorem tableType_duo (hc : c.Fair) : Duo c TableType.decode TableType.decode := by
  have h1 := limits_duo hc
  have h2 := refType_duo hc
  unfold TableType.decode; duo

theorem tagType_duo (hc : c.Fair) : Duo c TagType.decode TagType.decode := by
  have h1 := typeIdx_duo hc
  unfold TagType.decode; duo

theorem externType_duo (hc : c.Fair) : Duo c ExternType.decode ExternType.decode := by
  have h1 := typeIdx_duo hc
  have h2 := tableType_duo hc
  have h3 := memType_duo hc
  have h4 := globalType_duo hc
  have h5 := tagType_duo hc
  unfold ExternType.decode; duo

/-! ### Instructions -/

theorem memarg_duo (hc : c.Fair) : Duo c Memarg.decode Memarg.decode := by
  have h1 := u32_duo hc
  have h2 := u64_duo hc
  have h3 := memIdx_duo hc
  unfold Memarg.decode; duo

theorem laneIdx_duo (hc : c.Fair) : Duo c LaneIdx.decode LaneIdx.decode := by
  unfold LaneIdx.decode; duo

/-- The same scene without the condition on the last byte. -/
def Scene.dim (c : Scene R S) : Scene R S := { c with N := fun _ => True }

theorem Scene.Fair.dim (h : c.Fair) : c.dim.Fair :=
  ⟨h.step, h.cut, h.far, h.not, h.weight, h.room, h.reserve, h.reserveFar, h.int, h.eof⟩

theorem Duo.errDim {e : ε} (hN : ∀ r, c.N r) : Duo (α := α) c (Dec.err e) (Dec.err e) where
  far := fun _ h => h
  lit := fun _ _ _ _ => hN _
  rel := fun _ _ h => .inr (.inl ⟨rfl, h⟩)

theorem blockTypeIndex_duo (hc : c.Fair) (hN : ∀ r, c.N r) : Duo c blockTypeIndex blockTypeIndex := by
  have h1 := s33_duo hc
  refine Duo.bind (Duo.mapErr (fun _ => rfl) (fun e => by cases e <;> rfl) h1) fun x =>
    Duo.ite (Duo.errDim hN) ?_
  exact Duo.bind i64ToU32_duo fun _ => Duo.pure

/-- What follows the first byte of a block type. -/
theorem blockRest_duo (hc : c.Fair) (hN : ∀ r, c.N r) (b : UInt8) :
    Duo c (Dec.withChain b (Dec.orElseDiscard ValType.decode BlockType.T (Dec.withChain b blockTypeIndex)))
      (Dec.withChain b (Dec.orElseDiscard ValType.decode BlockType.T (Dec.withChain b blockTypeIndex))) := by
  have hv := valType_duo hc.chain
  have hi : Duo c.chain (Dec.withChain b blockTypeIndex) (Dec.withChain b blockTypeIndex) :=
    Duo.withChain (blockTypeIndex_duo hc.chain.chain fun r => hN r.inner.inner)
  have far : ∀ r : Chain R, c.chain.Beyond (ValType.decode r).2 →
      c.chain.Beyond (Dec.orElseDiscard ValType.decode BlockType.T (Dec.withChain b blockTypeIndex) r).2 := by
    intro r h1
    simp only [Dec.orElseDiscard]
    generalize ValType.decode r = o at h1
    obtain ⟨o, r1⟩ := o
    cases o with
    | err e => exact hi.far r1 h1
    | _ => exact h1
  constructor
  · exact fun r h => far ⟨[b], r⟩ (hv.far ⟨[b], r⟩ h)
  · exact fun r e _ _ => hN _
  · intro r s h
    have h1 := hv.rel ⟨[b], r⟩ ⟨[b], s⟩ ⟨rfl, h⟩
    have hf := far ⟨[b], r⟩
    have hs := valType_chain (b := b) (r := s)
    have hr := valType_chain (b := b) (r := r)
    simp only [Dec.withChain, Dec.orElseDiscard] at hf ⊢
    generalize ValType.decode (⟨[b], r⟩ : Chain R) = o at h1 hf hr
    generalize ValType.decode (⟨[b], s⟩ : Chain S) = o' at h1 hs
    obtain ⟨o, r1⟩ := o
    obtain ⟨o', s1⟩ := o'
    rcases h1 with h1 | ⟨h1, h2⟩ | ⟨h1, e, h2, h3, h4⟩
    · simp only at h1
      subst h1
      exact .inl rfl
    · simp only at h1
      subst h1
      cases o with
      | err e =>
        rcases hi.rel r1 s1 h2 with h3 | ⟨h3, h4⟩ | h3
        · exact .inl h3
        · exact .inr (.inl ⟨h3, h4.2⟩)
        · exact .inr (.inr h3)
      | _ => exact .inr (.inl ⟨rfl, h2.2⟩)
    · simp only at h2
      subst h2
      by_cases hb : b = 0x63 ∨ b = 0x64
      · obtain ⟨e2, c2, h5, h6, h7⟩ := blockTypeIndex_murky hb s1
        simp only [h5]
        refine .inr (.inr ⟨hf h1, e2, rfl, .inr h7, ?_⟩)
        show c.Done c2.inner.inner
        rw [h6]
        exact h4
      · have hr := hr (fun h => hb (.inl h)) (fun h => hb (.inr h))
        simp only at hr
        have h1 : c.Beyond r1.inner := h1
        rw [hr] at h1
        exact absurd h1 (hc.not h)

theorem blockType_duo (hc : c.Fair) (hl : Lamp c.N) : Duo c BlockType.decode BlockType.decode := by
  have h : Duo c.dim BlockType.decode BlockType.decode :=
    Duo.bind (dmap (Duo.readByte hc.dim)) fun b => Duo.ite Duo.pure (blockRest_duo hc.dim (fun _ => trivial) b)
  exact ⟨h.far, fun r e he hm => blockType_lit hl (r := r) (e := e) (by rw [← he]) hm, h.rel⟩

theorem catch_duo (hc : c.Fair) : Duo c Catch.decode Catch.decode := by
  have h1 := tagIdx_duo hc
  have h2 := labelIdx_duo hc
  unfold Catch.decode; duo

theorem castop_duo (hc : c.Fair) : Duo c decodeCastop decodeCastop := by
  unfold decodeCastop; duo

theorem vecBytes_duo (hc : c.Fair) : Duo c vecBytes vecBytes := by
  refine Duo.bind (dmap (Duo.readExact hc)) fun v => ?_
  by_cases h : v.length = 16
  · simp only [dif_pos h]; exact Duo.pure
  · simp only [dif_neg h]; exact Duo.panic

theorem parseFB_duo (hc : c.Fair) {op : UInt32} : Duo c (parseFB op) (parseFB op) := by
  have a1 : Duo c aggType aggType := dmap (typeIdx_duo hc)
  have a2 : Duo c aggField aggField := dmap (u32_duo hc)
  have a3 : Duo c aggLen aggLen := dmap (u32_duo hc)
  have a4 : Duo c aggData aggData := dmap (dataIdx_duo hc)
  have a5 : Duo c aggElem aggElem := dmap (elemIdx_duo hc)
  have a6 : Duo c refHeap refHeap := dmap (heapType_duo hc)
  have a7 : Duo c ctlHeap ctlHeap := dmap (heapType_duo hc)
  have a8 : Duo c ctlLabel ctlLabel := dmap (labelIdx_duo hc)
  have a9 := castop_duo hc
  unfold parseFB; duo

theorem parseFC_duo (hc : c.Fair) {op : UInt32} : Duo c (parseFC op) (parseFC op) := by
  have a1 : Duo c memData memData := dmap (dataIdx_duo hc)
  have a2 : Duo c memMem memMem := dmap (memIdx_duo hc)
  have a3 : Duo c tabElem tabElem := dmap (elemIdx_duo hc)
  have a4 : Duo c tabTable tabTable := dmap (tableIdx_duo hc)
  unfold parseFC; duo

theorem parseFD_duo (hc : c.Fair) {op : UInt32} : Duo c (parseFD op) (parseFD op) := by
  have a1 : Duo c vecMemarg vecMemarg := dmap (memarg_duo hc)
  have a2 : Duo c vecLane vecLane := dmap (laneIdx_duo hc)
  have a3 := vecBytes_duo hc
  unfold parseFD; duo

theorem parseSimple_duo (hc : c.Fair) {op : UInt8} : Duo c (parseSimple op) (parseSimple op) := by
  have a1 := list_duo hc (valType_duo hc)
  have a2 := tagIdx_duo hc
  have a3 := list_duo hc (labelIdx_duo hc)
  have a4 := funcIdx_duo hc
  have a5 := memarg_duo hc
  have a6 := u32_duo hc
  have a7 := i32_duo hc
  have a8 := i64_duo hc
  have a9 := f32_duo hc
  have a10 := f64_duo hc
  have b1 : Duo c ctlLabel ctlLabel := dmap (labelIdx_duo hc)
  have b2 : Duo c ctlFunc ctlFunc := dmap (funcIdx_duo hc)
  have b3 : Duo c ctlType ctlType := dmap (typeIdx_duo hc)
  have b4 : Duo c ctlTable ctlTable := dmap (tableIdx_duo hc)
  have b5 : Duo c refHeap refHeap := dmap (heapType_duo hc)
  have b6 : Duo c varLocal varLocal := dmap (localIdx_duo hc)
  have b7 : Duo c varGlobal varGlobal := dmap (globalIdx_duo hc)
  have b8 : Duo c tabTable tabTable := dmap (tableIdx_duo hc)
  have b9 : Duo c memMem memMem := dmap (memIdx_duo hc)
  unfold parseSimple
  repeat' (first | duostep | exact parseFB_duo hc | exact parseFC_duo hc | exact parseFD_duo hc | split)

theorem parseSeq_duo {p : Dec R ParseError ParseResult} {p' : Dec S ParseError ParseResult}
    (hp : Duo c p p') : ∀ n b acc, Duo c (parseSeq p n b acc) (parseSeq p' n b acc)
  | 0, _, _ => Duo.fuel
  | n + 1, b, acc => by
    refine Duo.bind hp fun v => ?_
    cases v with
    | Instruction i => exact parseSeq_duo hp n b _
    | End => exact Duo.pure
    | Else => exact Duo.ite Duo.pure (Duo.err rfl)

theorem parse_duo (hc : c.Fair) (hl : Lamp c.N) : ∀ n, Duo c (parse n) (parse n)
  | 0 => Duo.fuel
  | n + 1 => by
    have ih := fun b acc => parseSeq_duo (parse_duo hc hl n) n b acc
    refine Duo.bind (dmap (Duo.readExact hc)) fun v => ?_
    split
    · refine Duo.ite Duo.pure (Duo.ite Duo.pure (Duo.ite ?_ (Duo.ite ?_ ?_)))
      · refine Duo.bind (dmap (blockType_duo hc hl)) fun bt => Duo.bind (ih _ _) fun x => ?_
        refine Duo.ite Duo.pure (Duo.ite Duo.pure (Duo.ite ?_ Duo.panic))
        split
        · exact Duo.pure
        · exact Duo.bind (ih _ _) fun x => Duo.pure
        · exact Duo.panic
      · refine Duo.bind (dmap (blockType_duo hc hl)) fun bt =>
          Duo.bind (dmap (list_duo hc (catch_duo hc))) fun c =>
          Duo.bind (ih _ _) fun x => Duo.pure
      · exact Duo.bind (parseSimple_duo hc) fun _ => Duo.pure
    · exact Duo.panic

theorem exprLoop_duo {p : Dec R ParseError ParseResult} {p' : Dec S ParseError ParseResult}
    (hp : Duo c p p') : ∀ n b e, Duo c (decodeExprLoop p n b e) (decodeExprLoop p' n b e)
  | 0, _, _ => Duo.fuel
  | n + 1, b, e => by
    refine Duo.bind (dmap hp) fun v => ?_
    cases v with
    | Instruction i => exact exprLoop_duo hp n _ _
    | End => exact Duo.pure
    | Else => exact (Duo.err rfl)

theorem expr_duo (hc : c.Fair) (hl : Lamp c.N) : Duo c decodeExpr decodeExpr :=
  Duo.budget hc (d := fun n => decodeExprLoop (parse n) n [] false)
    (d' := fun n => decodeExprLoop (parse n) n [] false)
    fun _ => exprLoop_duo (parse_duo hc hl _) _ _ _

theorem expr'_duo (hc : c.Fair) (hl : Lamp c.N) : Duo c decodeExpr' decodeExpr' :=
  Duo.bind (expr_duo hc hl) fun ⟨_, _⟩ => Duo.pure

/-! ### Sections -/

theorem codeLocal_duo (hc : c.Fair) {st : UInt64} :
    Duo c (parseCodeLocal st) (parseCodeLocal st) := by
  have h1 := u32_duo hc
  have h2 := valType_duo hc
  unfold parseCodeLocal; duo

theorem codeBody_duo (hc : c.Fair) (hl : Lamp c.N) : Duo c parseCodeBody parseCodeBody :=
  Duo.bind (dmap (listS_duo hc fun _ => codeLocal_duo hc)) fun ⟨_, _⟩ =>
    Duo.bind (dmap (expr_duo hc hl)) fun ⟨_, _⟩ => Duo.pure

theorem code_duo (hc : c.Fair) (hl : Lamp c.N) : Duo c parseCode parseCode :=
  Duo.bind (dmap (u32_duo hc)) fun _ =>
    Duo.bind (Duo.withTake (codeBody_duo hc.take hl.take)) fun ⟨⟨_, _, _⟩, _⟩ => Duo.ite (Duo.err rfl) Duo.pure

theorem custom_duo (hc : c.Fair) : Duo c decodeSectionCustom decodeSectionCustom :=
  Duo.bind (dmap (name_duo hc)) fun _ =>
    Duo.bind (dmap (Duo.readToEnd hc)) fun _ => Duo.pure

theorem data_duo (hc : c.Fair) (hl : Lamp c.N) : Duo c parseData parseData := by
  have h1 := u32_duo hc
  have h2 := expr'_duo hc hl
  have h3 := byteVec_duo hc
  have h4 := memIdx_duo hc
  unfold parseData; duo

theorem elemKind_duo (hc : c.Fair) : Duo c parseElemKind parseElemKind := by
  unfold parseElemKind; duo

theorem elem_duo (hc : c.Fair) (hl : Lamp c.N) : Duo c parseElem parseElem := by
  have h1 := u32_duo hc
  have h2 := expr'_duo hc hl
  have h4 := tableIdx_duo hc
  have h5 := refType_duo hc
  have h6 : Duo c elemFuncs elemFuncs := dmap (list_duo hc (funcIdx_duo hc))
  have h7 : Duo c elemExprs elemExprs := dmap (list_duo hc h2)
  have h8 := elemKind_duo hc
  unfold parseElem; duo

theorem externIdx_duo {b : UInt8} {n : UInt32} :
    Duo c (ExternIdx.from b n) (ExternIdx.from b n) := by
  unfold ExternIdx.from; duo

theorem export_duo (hc : c.Fair) : Duo c parseExport parseExport :=
  Duo.bind (dmap (name_duo hc)) fun _ => Duo.bind (dmap (Duo.readByte hc)) fun _ =>
    Duo.bind (dmap (u32_duo hc)) fun _ => Duo.bind (dmap externIdx_duo) fun _ =>
      Duo.pure

theorem import_duo (hc : c.Fair) : Duo c parseImport parseImport := by
  have h1 := name_duo hc
  have h2 := externType_duo hc
  unfold parseImport; duo

theorem global_duo (hc : c.Fair) (hl : Lamp c.N) : Duo c parseGlobal parseGlobal := by
  have h1 := expr'_duo hc hl
  have h2 := globalType_duo hc
  unfold parseGlobal; duo

theorem table_duo (hc : c.Fair) (hl : Lamp c.N) : Duo c decodeTable decodeTable := by
  have h1 := expr'_duo hc hl
  have h2 := tableType_duo hc
  have h3 := tableType_duo hc.chain
  unfold decodeTable; duo

theorem fillFuncs_duo : ∀ codes i funcs enc,
    Duo c (fillFuncs codes i funcs enc) (fillFuncs codes i funcs enc)
  | [], _, _, _ => Duo.pure
  | c :: cs, i, funcs, enc => by
    unfold fillFuncs
    split
    · exact Duo.panic
    · exact fillFuncs_duo cs _ _ _

theorem sectionBody_duo (hc : c.Fair) (hl : Lamp c.N) {k : SectionKind} {st : LoopState} :
    Duo c (decodeSectionBody k st) (decodeSectionBody k st) := by
  cases k with
  | Custom => exact Duo.bind (dmap (custom_duo hc)) fun _ => Duo.pure
  | «Type» => exact Duo.bind (dmap (dmap (list_duo hc (recType_duo hc)))) fun _ => Duo.pure
  | Import => exact Duo.bind (dmap (dmap (list_duo hc (import_duo hc)))) fun _ => Duo.pure
  | Function => exact Duo.bind (dmap (dmap (list_duo hc (typeIdx_duo hc)))) fun _ => Duo.pure
  | Table => exact Duo.bind (dmap (dmap (list_duo hc (table_duo hc hl)))) fun _ => Duo.pure
  | Memory => exact Duo.bind (dmap (dmap (list_duo hc (memType_duo hc)))) fun _ => Duo.pure
  | Tag => exact Duo.bind (dmap (dmap (list_duo hc (tagType_duo hc)))) fun _ => Duo.pure
  | Global => exact Duo.bind (dmap (dmap (list_duo hc (global_duo hc hl)))) fun _ => Duo.pure
  | Export => exact Duo.bind (dmap (dmap (list_duo hc (export_duo hc)))) fun _ => Duo.pure
  | Start => exact Duo.bind (dmap (dmap (funcIdx_duo hc))) fun _ => Duo.pure
  | Element => exact Duo.bind (dmap (dmap (list_duo hc (elem_duo hc hl)))) fun _ => Duo.pure
  | DataCount => exact Duo.bind (dmap (dmap (u32_duo hc))) fun _ => Duo.pure
  | Code =>
    refine Duo.bind (dmap (dmap (list_duo hc (code_duo hc hl)))) fun codes => Duo.ite (Duo.err rfl) ?_
    exact Duo.bind (fillFuncs_duo _ _ _ _) fun ⟨_, _⟩ => Duo.pure
  | Data =>
    refine Duo.bind (dmap (dmap (list_duo hc (data_duo hc hl)))) fun datas => ?_
    split
    · exact Duo.ite (Duo.err rfl) Duo.pure
    · exact Duo.pure

theorem section_duo (hc : c.Fair) (hl : Lamp c.N) {h : SectionHeader} {st : LoopState} :
    Duo c (decodeSection h st) (decodeSection h st) := by
  have h1 : Duo c (st.module.validateSectionKindExpected h.kind)
      (st.module.validateSectionKindExpected h.kind) := by
    unfold Module.validateSectionKindExpected; duo
  exact Duo.bind h1 fun _ => Duo.bind (Duo.withTake (sectionBody_duo hc.take hl.take)) fun ⟨_, _⟩ =>
    Duo.ite (Duo.err rfl) Duo.pure

theorem headerRest_duo (hc : c.Fair) {b : UInt8} :
    Duo c (sectionHeaderRest b) (sectionHeaderRest b) := by
  have h1 := u32_duo hc
  unfold sectionHeaderRest; duo

theorem header_duo (hc : c.Fair) : Duo c decodeSectionHeader decodeSectionHeader where
  far := by
    intro r h
    have h1 := (Duo.readByte hc).far r h
    simp only [decodeSectionHeader]
    generalize readByte r = o at h1
    obtain ⟨o, r1⟩ := o
    cases o with
    | ok v => exact (headerRest_duo hc).far r1 h1
    | err e => simp only; split <;> exact h1
    | _ => exact h1
  lit := by
    intro r e h hm
    have h1 := fun b => (headerRest_duo hc (b := b)).lit
    simp only [decodeSectionHeader] at h ⊢
    generalize readByte r = o at h
    obtain ⟨o, r1⟩ := o
    cases o with
    | ok v => exact h1 v r1 e h hm
    | err e' =>
      simp only at h
      split at h
      · cases h
      · cases h; cases hm
    | panic => cases h
    | fuel => cases h
  rel := by
    intro r s h
    have h1 := (Duo.readByte hc).rel r s h
    simp only [decodeSectionHeader]
    generalize readByte r = o at h1
    generalize readByte s = o' at h1
    obtain ⟨o, r1⟩ := o
    obtain ⟨o', s1⟩ := o'
    rcases h1 with h1 | ⟨h1, h2⟩ | ⟨h1, e, h2, h3, h4⟩
    · simp only at h1
      subst h1
      exact .inl rfl
    · simp only at h1
      subst h1
      cases o with
      | ok v => exact (headerRest_duo hc).rel r1 s1 h2
      | err e => simp only; split <;> exact .inr (.inl ⟨rfl, h2⟩)
      | _ => exact .inr (.inl ⟨rfl, h2⟩)
    · simp only at h2
      subst h2
      have hX : e = c.X := by
        rcases h3 with h3 | h3
        · exact Option.some.inj h3
        · cases h3
      subst hX
      simp only [if_neg hc.eof]
      refine .inr (.inr ⟨?_, _, rfl, .inl rfl, h4⟩)
      cases o with
      | ok v => exact (headerRest_duo hc).far r1 h1
      | err e => simp only; split <;> exact h1
      | _ => exact h1

theorem loop_duo (hc : c.Fair) (hl : Lamp c.N) : ∀ n st, Duo c (sectionLoop n st) (sectionLoop n st)
  | 0, _ => Duo.fuel
  | n + 1, st => by
    refine Duo.bind (dmap (header_duo hc)) fun h => ?_
    cases h with
    | none => exact Duo.pure
    | some h => exact Duo.bind (section_duo hc hl) fun st => loop_duo hc hl n st

theorem preamble_duo (hc : c.Fair) : Duo c parsePreamble parsePreamble := by
  unfold parsePreamble; duo

theorem finalChecks_duo {st : LoopState} : Duo c (finalChecks st) (finalChecks st) := by
  unfold finalChecks; duo

theorem module_duo (hc : c.Fair) (hl : Lamp c.N) : Duo c decodeModule decodeModule :=
  Duo.budget hc
    (d := fun n => do
      parsePreamble.mapErr DecodeModuleError.ParsePreamble
      let st ← sectionLoop n ⟨Module.default, false, false⟩
      finalChecks st)
    (d' := fun n => do
      parsePreamble.mapErr DecodeModuleError.ParsePreamble
      let st ← sectionLoop n ⟨Module.default, false, false⟩
      finalChecks st)
    fun _ => Duo.bind (dmap (preamble_duo hc)) fun _ =>
      Duo.bind (loop_duo hc hl _ _) fun _ => finalChecks_duo

end Wadec
