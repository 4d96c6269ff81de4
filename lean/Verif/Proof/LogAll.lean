import Verif.Proof.Log

/-! C44: the decoders one by one. -/

namespace Wadec

variable {R : Type} [Read R]

/-- One step of a `Quiet` proof. -/
macro "qstep" : tactic => `(tactic| with_reducible first
  | exact Quiet.pure | exact Quiet.err | exact Quiet.panic | exact Quiet.fuel
  | exact Quiet.readByte | exact Quiet.readExact | assumption
  | refine Quiet.mapErr ?_ | refine Quiet.bind ?_ fun _ => ?_ | refine Quiet.ite ?_ ?_
  | refine Quiet.withChain ?_)

macro "quiet" : tactic => `(tactic| repeat' (first | qstep | split))

theorem decodeU32Loop_quiet : ∀ n i res s, Quiet (R := R) (decodeU32Loop n i res s)
  | 0, _, _, _ => Quiet.err
  | n + 1, i, res, s => by
    have ih := fun i res s => decodeU32Loop_quiet n i res s
    refine Quiet.bind (Quiet.mapErr Quiet.readByte) fun b => ?_
    refine Quiet.ite Quiet.panic ?_
    refine Quiet.ite (Quiet.ite Quiet.err Quiet.pure) (Quiet.ite Quiet.panic (ih _ _ _))

theorem decodeU64Loop_quiet : ∀ n i res s, Quiet (R := R) (decodeU64Loop n i res s)
  | 0, _, _, _ => Quiet.err
  | n + 1, i, res, s => by
    have ih := fun i res s => decodeU64Loop_quiet n i res s
    refine Quiet.bind (Quiet.mapErr Quiet.readByte) fun b => ?_
    refine Quiet.ite Quiet.panic ?_
    refine Quiet.ite (Quiet.ite Quiet.err Quiet.pure) (Quiet.ite Quiet.panic (ih _ _ _))

theorem decodeI32Loop_quiet : ∀ n res s, Quiet (R := R) (decodeI32Loop n res s)
  | 0, _, _ => Quiet.err
  | n + 1, res, s => by
    have ih := fun res s => decodeI32Loop_quiet n res s
    refine Quiet.bind (Quiet.mapErr Quiet.readByte) fun b => ?_
    refine Quiet.ite Quiet.panic (Quiet.ite Quiet.panic (Quiet.ite ?_ (ih _ _)))
    exact Quiet.ite Quiet.panic (Quiet.ite Quiet.err (Quiet.ite Quiet.pure Quiet.panic))

theorem decodeI64Loop_quiet : ∀ n res s, Quiet (R := R) (decodeI64Loop n res s)
  | 0, _, _ => Quiet.err
  | n + 1, res, s => by
    have ih := fun res s => decodeI64Loop_quiet n res s
    refine Quiet.bind (Quiet.mapErr Quiet.readByte) fun b => ?_
    refine Quiet.ite Quiet.panic (Quiet.ite Quiet.panic (Quiet.ite ?_ (ih _ _)))
    exact Quiet.ite (Quiet.ite Quiet.err (Quiet.ite Quiet.err Quiet.pure)) (Quiet.ite Quiet.pure Quiet.pure)

theorem decodeS33Loop_quiet : ∀ n res s, Quiet (R := R) (decodeS33Loop n res s)
  | 0, _, _ => Quiet.err
  | n + 1, res, s => by
    have ih := fun res s => decodeS33Loop_quiet n res s
    refine Quiet.bind (Quiet.mapErr Quiet.readByte) fun b => ?_
    refine Quiet.ite Quiet.panic (Quiet.ite Quiet.panic (Quiet.ite ?_ (ih _ _)))
    exact Quiet.ite Quiet.err (Quiet.ite Quiet.err (Quiet.ite (Quiet.ite Quiet.panic Quiet.pure) Quiet.pure))

theorem u32_q : Quiet (R := R) decodeU32 := decodeU32Loop_quiet _ _ _ _
theorem u64_q : Quiet (R := R) decodeU64 := decodeU64Loop_quiet _ _ _ _
theorem i32_q : Quiet (R := R) decodeI32 := decodeI32Loop_quiet _ _ _
theorem i64_q : Quiet (R := R) decodeI64 := decodeI64Loop_quiet _ _ _
theorem s33_q : Quiet (R := R) decodeS33 := decodeS33Loop_quiet _ _ _
theorem f32_q : Quiet (R := R) decodeF32 := by unfold decodeF32; quiet
theorem f64_q : Quiet (R := R) decodeF64 := by unfold decodeF64; quiet

/-- A `u32` takes at least one byte. -/
theorem u32_lg {c : Nat} [Audit R] : Lg c (decodeU32 : Dec R _ _) (c + 1) := by
  refine Lg.bind (Lg.mapErr Lg.readByte) fun b => Quiet.lg ?_
  refine Quiet.ite Quiet.panic ?_
  exact Quiet.ite (Quiet.ite Quiet.err Quiet.pure) (Quiet.ite Quiet.panic (decodeU32Loop_quiet _ _ _ _))

macro "qidx" : tactic => `(tactic| exact Quiet.bind (Quiet.mapErr u32_q) fun _ => Quiet.pure)

theorem TypeIdx.q : Quiet (R := R) TypeIdx.decode := by qidx
theorem FuncIdx.q : Quiet (R := R) FuncIdx.decode := by qidx
theorem TableIdx.q : Quiet (R := R) TableIdx.decode := by qidx
theorem MemIdx.q : Quiet (R := R) MemIdx.decode := by qidx
theorem GlobalIdx.q : Quiet (R := R) GlobalIdx.decode := by qidx
theorem ElemIdx.q : Quiet (R := R) ElemIdx.decode := by qidx
theorem DataIdx.q : Quiet (R := R) DataIdx.decode := by qidx
theorem LocalIdx.q : Quiet (R := R) LocalIdx.decode := by qidx
theorem LabelIdx.q : Quiet (R := R) LabelIdx.decode := by qidx
theorem TagIdx.q : Quiet (R := R) TagIdx.decode := by qidx

theorem i64ToU32_q {ε : Type} {x : Int64} : Quiet (i64ToU32 x : Dec R ε UInt32) := by
  unfold i64ToU32; quiet

theorem HeapType.q : Quiet (R := R) HeapType.decode := by
  have h1 := s33_q (R := Chain R)
  unfold HeapType.decode
  refine Quiet.bind (by quiet) fun b => ?_
  split
  · exact Quiet.pure
  · refine Quiet.bind (by quiet) fun x => Quiet.ite Quiet.err (Quiet.bind i64ToU32_q fun _ => Quiet.pure)

theorem AbsHeapType.q : Quiet (R := R) AbsHeapType.decode := by unfold AbsHeapType.decode; quiet

theorem RefType.q : Quiet (R := R) RefType.decode := by
  have h1 := HeapType.q (R := R)
  have h2 := AbsHeapType.q (R := Chain R)
  unfold RefType.decode; quiet

theorem ValType.q : Quiet (R := R) ValType.decode := by
  have h2 := RefType.q (R := Chain R)
  unfold ValType.decode; quiet

theorem GlobalType.q : Quiet (R := R) GlobalType.decode := by
  have h2 := ValType.q (R := R)
  unfold GlobalType.decode; quiet

theorem storageType_q : Quiet (R := R) decodeStorageType := by
  have h2 := ValType.q (R := Chain R)
  unfold decodeStorageType; quiet

theorem fieldType_q : Quiet (R := R) decodeFieldType := by
  have h2 := storageType_q (R := R)
  unfold decodeFieldType; quiet

theorem limitsRest_q {h : Bool} {a : AddrType} : Quiet (parseLimitsRest h a : Dec R _ _) := by
  have h2 := u64_q (R := R)
  unfold parseLimitsRest; quiet

theorem limits_q : Quiet (R := R) parseLimits := by
  refine Quiet.bind (by quiet) fun b => ?_
  exact Quiet.ite limitsRest_q (Quiet.ite limitsRest_q (Quiet.ite limitsRest_q (Quiet.ite limitsRest_q
    Quiet.err)))

theorem memType_q : Quiet (R := R) parseMemType := by
  have h2 := limits_q (R := R)
  unfold parseMemType; quiet

theorem TableType.q : Quiet (R := R) TableType.decode := by
  have h1 := RefType.q (R := R)
  have h2 := limits_q (R := R)
  unfold TableType.decode; quiet

theorem TagType.q : Quiet (R := R) TagType.decode := by
  have h1 := TypeIdx.q (R := R)
  unfold TagType.decode; quiet

theorem ExternType.q : Quiet (R := R) ExternType.decode := by
  have h1 := TypeIdx.q (R := R)
  have h2 := TableType.q (R := R)
  have h3 := memType_q (R := R)
  have h4 := GlobalType.q (R := R)
  have h5 := TagType.q (R := R)
  unfold ExternType.decode; quiet

theorem Memarg.q : Quiet (R := R) Memarg.decode := by
  have h1 := u32_q (R := R)
  have h2 := u64_q (R := R)
  have h3 := MemIdx.q (R := R)
  unfold Memarg.decode; quiet

theorem LaneIdx.q : Quiet (R := R) LaneIdx.decode := by unfold LaneIdx.decode; quiet

theorem blockTypeIndex_q : Quiet (R := R) blockTypeIndex :=
  Quiet.bind (Quiet.mapErr s33_q) fun _ => Quiet.ite Quiet.err (Quiet.bind i64ToU32_q fun _ => Quiet.pure)

theorem BlockType.q : Quiet (R := R) BlockType.decode := by
  refine Quiet.bind (by quiet) fun b => Quiet.ite Quiet.pure (Quiet.withChain ?_)
  exact Quiet.orElse ValType.q (Quiet.withChain blockTypeIndex_q)

theorem Catch.q : Quiet (R := R) Catch.decode := by
  have h1 := TagIdx.q (R := R)
  have h2 := LabelIdx.q (R := R)
  unfold Catch.decode; quiet

theorem castop_q : Quiet (R := R) decodeCastop := by unfold decodeCastop; quiet

theorem vecBytes_q : Quiet (R := R) vecBytes := by
  refine Quiet.bind (by quiet) fun b => ?_
  split
  · exact Quiet.pure
  · exact Quiet.panic

theorem parseFB_q {op : UInt32} : Quiet (parseFB op : Dec R _ _) := by
  have h1 : Quiet (R := R) aggType := Quiet.mapErr TypeIdx.q
  have h2 : Quiet (R := R) aggField := Quiet.mapErr u32_q
  have h3 : Quiet (R := R) aggLen := Quiet.mapErr u32_q
  have h4 : Quiet (R := R) aggData := Quiet.mapErr DataIdx.q
  have h5 : Quiet (R := R) aggElem := Quiet.mapErr ElemIdx.q
  have h6 : Quiet (R := R) refHeap := Quiet.mapErr HeapType.q
  have h7 : Quiet (R := R) ctlHeap := Quiet.mapErr HeapType.q
  have h8 : Quiet (R := R) ctlLabel := Quiet.mapErr LabelIdx.q
  have h9 := castop_q (R := R)
  unfold parseFB; quiet

theorem parseFC_q {op : UInt32} : Quiet (parseFC op : Dec R _ _) := by
  have h1 : Quiet (R := R) memData := Quiet.mapErr DataIdx.q
  have h2 : Quiet (R := R) memMem := Quiet.mapErr MemIdx.q
  have h3 : Quiet (R := R) tabElem := Quiet.mapErr ElemIdx.q
  have h4 : Quiet (R := R) tabTable := Quiet.mapErr TableIdx.q
  unfold parseFC; quiet

theorem parseFD_q {op : UInt32} : Quiet (parseFD op : Dec R _ _) := by
  have h1 : Quiet (R := R) vecMemarg := Quiet.mapErr Memarg.q
  have h2 : Quiet (R := R) vecLane := Quiet.mapErr LaneIdx.q
  have h3 := vecBytes_q (R := R)
  unfold parseFD; quiet

/-! ### Decoders with lists -/

section
variable [Audit R]

theorem byteVec_lg : Lg 0 (decodeByteVector : Dec R _ _) 0 :=
  Lg.bind (Lg.mapErr u32_lg) fun n => Lg.bind (Lg.reserve n.toNat_lt) fun _ =>
    Quiet.lg (Quiet.mapErr Quiet.readExact)

theorem name_lg : Lg 0 (decodeName : Dec R _ _) 0 := by
  refine Lg.bind (Lg.mapErr byteVec_lg) fun v => ?_
  split
  · exact Quiet.pure.lg
  · exact Quiet.err.lg

theorem listLoop_lg {ε α σ : Type} {f : σ → Dec R ε (α × σ)} (hf : ∀ st, Lg 0 (f st) 0) :
    ∀ n i st items, Lg 0 (decodeListLoop f n i st items) 0
  | 0, _, _, _ => Quiet.pure.lg
  | n + 1, i, st, items => Lg.bind (Lg.mapErr (hf st)) fun ⟨_, _⟩ => listLoop_lg hf n _ _ _

theorem listS_lg {ε α σ : Type} {f : σ → Dec R ε (α × σ)} {st : σ} (hf : ∀ st, Lg 0 (f st) 0) :
    Lg 0 (decodeListS f st) 0 :=
  Lg.bind (Lg.mapErr u32_lg) fun n => Lg.bind (Lg.reserve n.toNat_lt) fun _ => listLoop_lg hf _ _ _ _

theorem list_lg {ε α : Type} {f : Dec R ε α} (hf : Lg 0 f 0) : Lg 0 (decodeList f) 0 :=
  Lg.bind (listS_lg fun _ => Lg.bind hf fun _ => Quiet.pure.lg) fun ⟨_, _⟩ => Quiet.pure.lg

theorem list_q {ε α : Type} {f : Dec R ε α} (hf : Quiet f) : Lg 0 (decodeList f) 0 := list_lg hf.lg

theorem resultType_lg : Lg 0 (decodeResultType : Dec R _ _) 0 := Lg.mapErr (list_q ValType.q)

/-- Read a byte, then go on with one more credit than before. -/
theorem Lg.byte1 {ε α : Type} {f : IoError → ε} {k : UInt8 → Dec R ε α} {c : Nat}
    (h : ∀ b, Lg 1 (k b) c) : Lg 0 (Dec.mapErr f (Wadec.readByte : Dec R IoError UInt8) >>= k) c :=
  Lg.bind (Lg.mapErr (Lg.readByte (c := 0))) h

theorem Lg.up {ε α : Type} {d : Dec R ε α} (h : Lg 0 d 0) : Lg 1 d 0 := h.weaken (by omega) (by omega)

theorem CompType.lg : Lg 0 (CompType.decode : Dec R _ _) 0 := by
  refine Lg.bind (Quiet.lg (by quiet)) fun b => Lg.ite ?_ (Lg.ite ?_ (Lg.ite ?_ Quiet.err.lg))
  · exact Lg.bind (Lg.mapErr fieldType_q.lg) fun _ => Quiet.pure.lg
  · exact Lg.bind (Lg.mapErr (list_q fieldType_q)) fun _ => Quiet.pure.lg
  · exact Lg.bind (Lg.mapErr resultType_lg) fun _ => Lg.bind (Lg.mapErr resultType_lg) fun _ => Quiet.pure.lg

theorem SubType.lg : Lg 0 (SubType.decode : Dec R _ _) 0 := by
  refine Lg.byte1 (R := R) fun b => Lg.ite (Lg.up ?_) ?_
  · exact Lg.bind (Lg.mapErr (list_q TypeIdx.q)) fun _ => Lg.bind (Lg.mapErr CompType.lg) fun _ => Quiet.pure.lg
  · exact Lg.bind (Lg.mapErr (Lg.withChain CompType.lg)) fun _ => Quiet.pure.lg

theorem RecType.lg : Lg 0 (RecType.decode : Dec R _ _) 0 := by
  refine Lg.byte1 (R := R) fun b => Lg.ite (Lg.up ?_) ?_
  · exact Lg.bind (Lg.mapErr (list_lg SubType.lg)) fun _ => Quiet.pure.lg
  · exact Lg.bind (Lg.mapErr (Lg.withChain SubType.lg)) fun _ => Quiet.pure.lg

macro "qleaf" : tactic => `(tactic| first
  | assumption | exact Quiet.pure | exact Quiet.err | exact Quiet.panic
  | exact Quiet.fuel | exact Quiet.readByte | exact Quiet.readExact)

/-- One step of an `Lg 0 _ 0` proof. -/
macro "lstep" : tactic => `(tactic| with_reducible first
  | assumption
  | exact Quiet.lg (by qleaf)
  | refine Lg.mapErr ?_ | refine Lg.bind (c1 := 0) ?_ fun _ => ?_ | refine Lg.ite ?_ ?_
  | refine list_q ?_ | refine list_lg ?_)

macro "lg" : tactic => `(tactic| repeat' (first | lstep | split))

theorem parseSimple_lg {op : UInt8} : Lg 0 (parseSimple op : Dec R _ _) 0 := by
  have a1 := ValType.q (R := R)
  have a2 := TagIdx.q (R := R)
  have a3 := LabelIdx.q (R := R)
  have a4 := FuncIdx.q (R := R)
  have a5 := Memarg.q (R := R)
  have a6 := u32_q (R := R)
  have a7 := i32_q (R := R)
  have a8 := i64_q (R := R)
  have a9 := f32_q (R := R)
  have a10 := f64_q (R := R)
  have b1 : Quiet (R := R) ctlLabel := Quiet.mapErr LabelIdx.q
  have b2 : Quiet (R := R) ctlFunc := Quiet.mapErr FuncIdx.q
  have b3 : Quiet (R := R) ctlType := Quiet.mapErr TypeIdx.q
  have b4 : Quiet (R := R) ctlTable := Quiet.mapErr TableIdx.q
  have b5 : Quiet (R := R) refHeap := Quiet.mapErr HeapType.q
  have b6 : Quiet (R := R) varLocal := Quiet.mapErr LocalIdx.q
  have b7 : Quiet (R := R) varGlobal := Quiet.mapErr GlobalIdx.q
  have b8 : Quiet (R := R) tabTable := Quiet.mapErr TableIdx.q
  have b9 : Quiet (R := R) memMem := Quiet.mapErr MemIdx.q
  have c1 := fun op => parseFB_q (R := R) (op := op)
  have c2 := fun op => parseFC_q (R := R) (op := op)
  have c3 := fun op => parseFD_q (R := R) (op := op)
  unfold parseSimple
  repeat' (first | lstep | exact (c1 _).lg | exact (c2 _).lg | exact (c3 _).lg | split)

theorem parseSeq_lg {p : Dec R ParseError ParseResult} (hp : Lg 0 p 0) :
    ∀ n b acc, Lg 0 (parseSeq p n b acc) 0
  | 0, _, _ => Quiet.fuel.lg
  | n + 1, b, acc => by
    refine Lg.bind hp fun v => ?_
    cases v with
    | Instruction i => exact parseSeq_lg hp n b _
    | End => exact Quiet.pure.lg
    | Else => exact Lg.ite Quiet.pure.lg Quiet.err.lg

theorem parse_lg : ∀ n, Lg 0 (parse n : Dec R _ _) 0
  | 0 => Quiet.fuel.lg
  | n + 1 => by
    have ih := parseSeq_lg (parse_lg n)
    refine Lg.bind (Quiet.lg (by quiet)) fun v => ?_
    split
    · refine Lg.ite Quiet.pure.lg (Lg.ite Quiet.pure.lg (Lg.ite ?_ (Lg.ite ?_ ?_)))
      · refine Lg.bind (Lg.mapErr BlockType.q.lg) fun bt => Lg.bind (ih _ _ _) fun x => ?_
        refine Lg.ite Quiet.pure.lg (Lg.ite Quiet.pure.lg (Lg.ite ?_ Quiet.panic.lg))
        split
        · exact Quiet.pure.lg
        · exact Lg.bind (ih _ _ _) fun x => Quiet.pure.lg
        · exact Quiet.panic.lg
      · refine Lg.bind (Lg.mapErr BlockType.q.lg) fun bt => Lg.bind (Lg.mapErr (list_q Catch.q)) fun c =>
          Lg.bind (ih _ _ _) fun x => Quiet.pure.lg
      · exact Lg.bind parseSimple_lg fun _ => Quiet.pure.lg
    · exact Quiet.panic.lg

theorem exprLoop_lg {p : Dec R ParseError ParseResult} (hp : Lg 0 p 0) :
    ∀ n b e, Lg 0 (decodeExprLoop p n b e) 0
  | 0, _, _ => Quiet.fuel.lg
  | n + 1, b, e => by
    refine Lg.bind (Lg.mapErr hp) fun v => ?_
    cases v with
    | Instruction i => exact exprLoop_lg hp n _ _
    | End => exact Quiet.pure.lg
    | Else => exact Quiet.err.lg

theorem expr_lg : Lg 0 (decodeExpr : Dec R _ _) 0 :=
  fun r _ _ hr => exprLoop_lg (parse_lg _) _ _ _ r _ _ hr

theorem expr'_lg : Lg 0 (decodeExpr' : Dec R _ _) 0 := Lg.bind expr_lg fun _ => Quiet.pure.lg

theorem codeLocal_lg {st : UInt64} : Lg 0 (parseCodeLocal st : Dec R _ _) 0 := by
  refine Lg.bind (Lg.mapErr u32_q.lg) fun n => Lg.ite Quiet.panic.lg (Lg.ite Quiet.err.lg ?_)
  exact Lg.bind (Lg.mapErr ValType.q.lg) fun _ => Quiet.pure.lg

theorem codeBody_lg : Lg 0 (parseCodeBody : Dec R _ _) 0 :=
  Lg.bind (Lg.mapErr (listS_lg fun _ => codeLocal_lg)) fun _ => Lg.bind (Lg.mapErr expr_lg) fun _ =>
    Quiet.pure.lg

theorem code_lg : Lg 0 (parseCode : Dec R _ _) 0 :=
  Lg.bind (Lg.mapErr u32_q.lg) fun _ => Lg.bind (Lg.withTake codeBody_lg) fun _ =>
    Lg.ite Quiet.err.lg Quiet.pure.lg

theorem custom_lg : Lg 0 (decodeSectionCustom : Dec R _ _) 0 :=
  Lg.bind (Lg.mapErr name_lg) fun _ => Lg.bind (Lg.mapErr Quiet.readToEnd.lg) fun _ => Quiet.pure.lg

theorem data_lg : Lg 0 (parseData : Dec R _ _) 0 := by
  have h1 := u32_q (R := R)
  have h2 := expr'_lg (R := R)
  have h3 := byteVec_lg (R := R)
  have h4 := MemIdx.q (R := R)
  unfold parseData; lg

theorem elem_lg : Lg 0 (parseElem : Dec R _ _) 0 := by
  have h1 := u32_q (R := R)
  have h2 := expr'_lg (R := R)
  have h4 := TableIdx.q (R := R)
  have h5 := RefType.q (R := R)
  have h6 : Lg 0 (elemFuncs : Dec R _ _) 0 := Lg.mapErr (list_q FuncIdx.q)
  have h7 : Lg 0 (elemExprs : Dec R _ _) 0 := Lg.mapErr (list_lg expr'_lg)
  have h8 : Quiet (R := R) parseElemKind := by unfold parseElemKind; quiet
  unfold parseElem; lg

theorem export_lg : Lg 0 (parseExport : Dec R _ _) 0 := by
  have h1 := u32_q (R := R)
  have h2 := name_lg (R := R)
  have h3 : ∀ b n, Quiet (R := R) (ExternIdx.from b n) := by
    intro b n; unfold ExternIdx.from; quiet
  unfold parseExport
  refine Lg.bind (c1 := 0) (by lg) fun _ => Lg.bind (c1 := 0) (by lg) fun _ => Lg.bind (c1 := 0) (by lg) fun _ =>
    Lg.bind (Lg.mapErr (h3 _ _).lg) fun _ => Quiet.pure.lg

theorem import_lg : Lg 0 (parseImport : Dec R _ _) 0 := by
  have h1 := name_lg (R := R)
  have h2 := ExternType.q (R := R)
  unfold parseImport; lg

theorem global_lg : Lg 0 (parseGlobal : Dec R _ _) 0 := by
  have h1 := expr'_lg (R := R)
  have h2 := GlobalType.q (R := R)
  unfold parseGlobal; lg

theorem table_lg : Lg 0 (decodeTable : Dec R _ _) 0 := by
  have h1 := expr'_lg (R := R)
  have h2 := TableType.q (R := R)
  have h3 : ∀ b, Quiet (Dec.withChain b (TableType.decode : Dec (Chain R) _ _)) :=
    fun b => Quiet.withChain TableType.q
  unfold decodeTable
  refine Lg.bind (by lg) fun b => Lg.ite ?_ (Lg.bind (Lg.mapErr (h3 b).lg) fun _ => Quiet.pure.lg)
  lg

omit [Audit R] in
theorem fillFuncs_q : ∀ (cs : List Code) (i : Nat) (fs : List Func) (b : Bool),
    Quiet (R := R) (fillFuncs cs i fs b)
  | [], _, _, _ => Quiet.pure
  | c :: cs, i, fs, b => by
    unfold fillFuncs
    split
    · exact Quiet.panic
    · exact fillFuncs_q cs _ _ _

macro "lsec" t:term : tactic => `(tactic|
  exact Lg.bind (Lg.mapErr $t) fun _ => Quiet.pure.lg)

theorem sectionBody_lg {k : SectionKind} {st : LoopState} : Lg 0 (decodeSectionBody k st : Dec R _ _) 0 := by
  cases k with
  | Custom => lsec custom_lg
  | «Type» => lsec (Lg.mapErr (list_lg RecType.lg))
  | Import => lsec (Lg.mapErr (list_lg import_lg))
  | Function => lsec (Lg.mapErr (list_q TypeIdx.q))
  | Table => lsec (Lg.mapErr (list_lg table_lg))
  | Memory => lsec (Lg.mapErr (list_q memType_q))
  | Tag => lsec (Lg.mapErr (list_q TagType.q))
  | Global => lsec (Lg.mapErr (list_lg global_lg))
  | Export => lsec (Lg.mapErr (list_lg export_lg))
  | Start => lsec (Lg.mapErr FuncIdx.q.lg)
  | Element => lsec (Lg.mapErr (list_lg elem_lg))
  | DataCount => lsec (Lg.mapErr u32_q.lg)
  | Code =>
    refine Lg.bind (Lg.mapErr (Lg.mapErr (list_lg code_lg))) fun codes => Lg.ite Quiet.err.lg ?_
    exact Lg.bind (fillFuncs_q _ _ _ _).lg fun _ => Quiet.pure.lg
  | Data =>
    refine Lg.bind (Lg.mapErr (Lg.mapErr (list_lg data_lg))) fun datas => ?_
    split
    · exact Lg.ite Quiet.err.lg Quiet.pure.lg
    · exact Quiet.pure.lg

theorem section_lg {h : SectionHeader} {st : LoopState} : Lg 0 (decodeSection h st : Dec R _ _) 0 := by
  have h1 : Quiet (R := R) (st.module.validateSectionKindExpected h.kind) := by
    unfold Module.validateSectionKindExpected
    quiet
  exact Lg.bind h1.lg fun _ => Lg.bind (Lg.withTake sectionBody_lg) fun _ => Lg.ite Quiet.err.lg Quiet.pure.lg

omit [Audit R] in
theorem header_q : Quiet (R := R) decodeSectionHeader := by
  intro I h1 h2 h3 r
  have h := Quiet.readByte I h1 h2 h3 r
  simp only [decodeSectionHeader]
  split <;> rename_i hr <;> rw [hr] at h
  · refine h2 _ _ _ h ?_
    have : ∀ id, Quiet (R := R) (sectionHeaderRest id) := by
      intro id
      have := u32_q (R := R)
      unfold sectionHeaderRest
      quiet
    exact this _ I h1 h2 h3 _
  · split <;> exact h
  · exact h
  · exact h

theorem loop_lg : ∀ n st, Lg 0 (sectionLoop n st : Dec R _ _) 0
  | 0, _ => Quiet.fuel.lg
  | n + 1, st => by
    refine Lg.bind (Lg.mapErr header_q.lg) fun h => ?_
    cases h with
    | none => exact Quiet.pure.lg
    | some h => exact Lg.bind section_lg fun st => loop_lg n st

omit [Audit R] in
theorem finalChecks_q {st : LoopState} : Quiet (R := R) (finalChecks st) :=
  Quiet.ite Quiet.err (Quiet.ite Quiet.err (Quiet.ite Quiet.err Quiet.pure))

omit [Audit R] in
theorem preamble_q : Quiet (R := R) parsePreamble := by unfold parsePreamble; quiet

theorem module_lg : Lg 0 (decodeModule : Dec R _ _) 0 :=
  fun r _ _ hr => (Lg.bind (Lg.mapErr preamble_q.lg) fun _ => Lg.bind (loop_lg (Read.weight r + 1) _)
    fun _ => finalChecks_q.lg) r _ _ hr

end

end Wadec
