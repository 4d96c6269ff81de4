import Verif.Proof.Owes

/-! C44: the decoders one by one. -/

namespace Wadec

variable {R : Type} [Read R] [Audit R]

/-- One step of an `Owes _ 1 _ 1` proof: a byte has been read already. -/
macro "ostep" : tactic => `(tactic| with_reducible first
  | assumption
  | exact Owes.err | exact Owes.panic | exact Owes.fuel
  | exact Quiet.owes (by qleaf)
  | refine Owes.mapErr ?_ | refine Owes.bind (c1 := 1) ?_ fun _ => ?_ | refine Owes.ite ?_ ?_)

macro "owes" : tactic => `(tactic| repeat' (first | ostep | split))

theorem Owes.up {ε α : Type} {d : Dec R ε α} {k k1 : Nat} (h : Owes k 0 d 1) (hk : k ≤ k1 := by omega) :
    Owes k1 1 d 1 := h.weaken hk (by omega) (by omega)

theorem Owes.more {ε α : Type} {d : Dec R ε α} {k k1 c c' : Nat} (h : Owes k c d c') (hk : k ≤ k1 := by omega) :
    Owes k1 c d c' := h.weaken hk (by omega) (by omega)

section
variable {k : Nat}

theorem TypeIdx.ow : Owes k 0 (TypeIdx.decode : Dec R _ _) 1 := Owes.idx
theorem FuncIdx.ow : Owes k 0 (FuncIdx.decode : Dec R _ _) 1 := Owes.idx
theorem LabelIdx.ow : Owes k 0 (LabelIdx.decode : Dec R _ _) 1 := Owes.idx

theorem s33_ow : Owes k 0 (decodeS33 : Dec R _ _) 1 := by
  refine Owes.byte fun b => Owes.quiet ?_
  refine Quiet.ite Quiet.panic (Quiet.ite Quiet.panic (Quiet.ite ?_ (decodeS33Loop_quiet _ _ _)))
  exact Quiet.ite Quiet.err (Quiet.ite Quiet.err (Quiet.ite (Quiet.ite Quiet.panic Quiet.pure) Quiet.pure))

theorem AbsHeapType.ow : Owes k 0 (AbsHeapType.decode : Dec R _ _) 1 := by
  refine Owes.byte fun b => Owes.quiet ?_
  quiet

theorem RefType.ow : Owes k 0 (RefType.decode : Dec R _ _) 1 := by
  have h := HeapType.q (R := R)
  refine Owes.byte fun b => Owes.ite ?_ (Owes.ite ?_ ?_)
  · owes
  · owes
  · exact Owes.then_quiet (Owes.mapErr (Owes.withChain AbsHeapType.ow)) fun _ => Quiet.pure

theorem ValType.ow : Owes k 0 (ValType.decode : Dec R _ _) 1 := by
  refine Owes.byte fun b => Owes.ite Owes.pure (Owes.ite Owes.pure (Owes.ite Owes.pure (Owes.ite Owes.pure
    (Owes.ite Owes.pure ?_))))
  exact Owes.then_quiet (Owes.mapErr (Owes.withChain RefType.ow)) fun _ => Quiet.pure

theorem storageType_ow : Owes k 0 (decodeStorageType : Dec R _ _) 1 := by
  refine Owes.byte fun b => ?_
  split
  · exact Owes.pure
  · exact Owes.then_quiet (Owes.mapErr (Owes.withChain ValType.ow)) fun _ => Quiet.pure

theorem fieldType_ow : Owes k 0 (decodeFieldType : Dec R _ _) 1 :=
  Owes.then_quiet (Owes.mapErr storageType_ow) fun _ => by quiet

theorem limits_ow : Owes k 0 (parseLimits : Dec R _ _) 1 := by
  refine Owes.byte fun b => Owes.quiet ?_
  exact Quiet.ite limitsRest_q (Quiet.ite limitsRest_q (Quiet.ite limitsRest_q (Quiet.ite limitsRest_q
    Quiet.err)))

theorem memType_ow : Owes k 0 (parseMemType : Dec R _ _) 1 :=
  Owes.then_quiet (Owes.mapErr limits_ow) fun _ => Quiet.pure

theorem TableType.ow : Owes k 0 (TableType.decode : Dec R _ _) 1 := by
  have h := limits_q (R := R)
  exact Owes.then_quiet (Owes.mapErr RefType.ow) fun _ => by quiet

theorem TagType.ow : Owes k 0 (TagType.decode : Dec R _ _) 1 := by
  have h := TypeIdx.q (R := R)
  refine Owes.byte fun b => Owes.quiet ?_
  quiet

theorem Catch.ow : Owes k 0 (Catch.decode : Dec R _ _) 1 := by
  have h1 := TagIdx.q (R := R)
  have h2 := LabelIdx.q (R := R)
  refine Owes.byte fun b => Owes.quiet ?_
  quiet

theorem GlobalType.ow : Owes k 0 (GlobalType.decode : Dec R _ _) 1 :=
  Owes.then_quiet (Owes.mapErr ValType.ow) fun _ => by quiet

end

theorem name_ow : Owes 1 0 (decodeName : Dec R _ _) 1 := by
  refine Owes.bind (Owes.mapErr Owes.byteVec) fun v => ?_
  split
  · exact Owes.pure
  · exact Owes.err

theorem resultType_ow : Owes 1 0 (decodeResultType : Dec R _ _) 1 := Owes.mapErr (Owes.list ValType.ow)

theorem CompType.ow : Owes 1 0 (CompType.decode : Dec R _ _) 1 := by
  have h1 := fieldType_q (R := R)
  have h2 := (resultType_ow (R := R)).up (k1 := 1)
  have h3 := (Owes.list (fieldType_ow (R := R) (k := 0))).up (k1 := 1)
  refine Owes.byte fun b => ?_
  owes

theorem SubType.ow : Owes 1 0 (SubType.decode : Dec R _ _) 1 := by
  have h1 := (Owes.list (TypeIdx.ow (R := R) (k := 0))).up (k1 := 1)
  have h2 := (CompType.ow (R := R)).up (k1 := 1)
  refine Owes.byte fun b => Owes.ite ?_ ?_
  · owes
  · exact Owes.then_quiet (Owes.mapErr (Owes.withChain CompType.ow)) fun _ => Quiet.pure

theorem RecType.ow : Owes 2 0 (RecType.decode : Dec R _ _) 1 := by
  have h1 := (Owes.list (SubType.ow (R := R))).up (k1 := 2)
  refine Owes.byte fun b => Owes.ite ?_ ?_
  · owes
  · exact Owes.then_quiet (Owes.mapErr (Owes.withChain SubType.ow.more)) fun _ => Quiet.pure

theorem parseSimple_ow {op : UInt8} : Owes 1 1 (parseSimple op : Dec R _ _) 1 := by
  have a1 := (Owes.list (ValType.ow (R := R) (k := 0))).up (k1 := 1)
  have a2 := (Owes.list (LabelIdx.ow (R := R) (k := 0))).up (k1 := 1)
  have a3 := LabelIdx.q (R := R)
  have a4 := FuncIdx.q (R := R)
  have a5 := Memarg.q (R := R)
  have a6 := u32_q (R := R)
  have a7 := i32_q (R := R)
  have a8 := i64_q (R := R)
  have a9 := f32_q (R := R)
  have a10 := f64_q (R := R)
  have a11 := TagIdx.q (R := R)
  have b1 : Quiet (R := R) ctlLabel := Quiet.mapErr LabelIdx.q
  have b2 : Quiet (R := R) ctlFunc := Quiet.mapErr FuncIdx.q
  have b3 : Quiet (R := R) ctlType := Quiet.mapErr TypeIdx.q
  have b4 : Quiet (R := R) ctlTable := Quiet.mapErr TableIdx.q
  have b5 : Quiet (R := R) refHeap := Quiet.mapErr HeapType.q
  have b6 : Quiet (R := R) varLocal := Quiet.mapErr LocalIdx.q
  have b7 : Quiet (R := R) varGlobal := Quiet.mapErr GlobalIdx.q
  have b8 : Quiet (R := R) tabTable := Quiet.mapErr TableIdx.q
  have b9 : Quiet (R := R) memMem := Quiet.mapErr MemIdx.q
  have c1 := fun op => parseFB_q (R := R) (op := op)
  have c2 := fun op => parseFC_q (R := R) (op := op)
  have c3 := fun op => parseFD_q (R := R) (op := op)
  unfold parseSimple
  repeat' (first | ostep | exact (c1 _).owes | exact (c2 _).owes | exact (c3 _).owes | split)

theorem parseSeq_ow {p : Dec R ParseError ParseResult} (hp : Owes 1 0 p 1) :
    ∀ n b acc, Owes 1 0 (parseSeq p n b acc) 0
  | 0, _, _ => Owes.fuel
  | n + 1, b, acc => by
    refine Owes.bind (hp.weaken (c1' := 0) (by omega) (by omega) (by omega)) fun v => ?_
    cases v with
    | Instruction i => exact parseSeq_ow hp n b _
    | End => exact Owes.pure
    | Else => exact Owes.ite Owes.pure Owes.err

theorem parse_ow : ∀ n, Owes 1 0 (parse n : Dec R _ _) 1
  | 0 => Owes.fuel
  | n + 1 => by
    have ih : ∀ n' b acc, Owes 1 1 (parseSeq (parse n : Dec R _ _) n' b acc) 1 :=
      fun _ _ _ => (parseSeq_ow (parse_ow n) _ _ _).weaken (by omega) (by omega) (by omega)
    refine Owes.bind (Owes.mapErr (Owes.readExact (n := 1))) fun v => ?_
    split
    · refine Owes.ite Owes.pure (Owes.ite Owes.pure (Owes.ite ?_ (Owes.ite ?_ ?_)))
      · refine Owes.bind (Owes.mapErr BlockType.q.owes) fun bt => Owes.bind (ih _ _ _) fun x => ?_
        refine Owes.ite Owes.pure (Owes.ite Owes.pure (Owes.ite ?_ Owes.panic))
        split
        · exact Owes.pure
        · exact Owes.bind (ih _ _ _) fun x => Owes.pure
        · exact Owes.panic
      · refine Owes.bind (Owes.mapErr BlockType.q.owes) fun bt =>
          Owes.bind (Owes.mapErr (Owes.list (Catch.ow (k := 0))).up) fun c => Owes.bind (ih _ _ _) fun x => Owes.pure
      · exact Owes.bind parseSimple_ow fun _ => Owes.pure
    · exact Owes.panic

theorem exprLoop_ow {p : Dec R ParseError ParseResult} (hp : Owes 1 0 p 1) :
    ∀ n b e, Owes 1 0 (decodeExprLoop p n b e) 1
  | 0, _, _ => Owes.fuel
  | n + 1, b, e => by
    refine Owes.bind (Owes.mapErr hp) fun v => ?_
    cases v with
    | Instruction i => exact (exprLoop_ow hp n _ _).up
    | End => exact Owes.pure
    | Else => exact Owes.err

theorem expr_ow : Owes 1 0 (decodeExpr : Dec R _ _) 1 :=
  fun r _ _ hr => exprLoop_ow (parse_ow _) _ _ _ r _ _ hr

theorem expr'_ow : Owes 1 0 (decodeExpr' : Dec R _ _) 1 := Owes.bind expr_ow fun _ => Owes.pure

theorem codeLocal_ow {st : UInt64} : Owes 0 0 (parseCodeLocal st : Dec R _ _) 1 := by
  refine Owes.bind (Owes.mapErr Owes.u32) fun n => Owes.ite Owes.panic (Owes.ite Owes.err ?_)
  exact Owes.bind (Owes.mapErr ValType.q.owes) fun _ => Owes.pure

theorem codeBody_ow : Owes 1 0 (parseCodeBody : Dec R _ _) 1 :=
  Owes.bind (Owes.mapErr (Owes.listS fun _ => codeLocal_ow)) fun _ => Owes.bind (Owes.mapErr expr_ow.up) fun _ =>
    Owes.pure

theorem code_ow : Owes 1 0 (parseCode : Dec R _ _) 1 :=
  Owes.bind (Owes.mapErr Owes.u32) fun _ => Owes.bind (Owes.withTake codeBody_ow.up) fun _ =>
    Owes.ite Owes.err Owes.pure

theorem custom_ow : Owes 1 0 (decodeSectionCustom : Dec R _ _) 1 :=
  Owes.bind (Owes.mapErr name_ow) fun _ => Owes.bind (Owes.mapErr Quiet.readToEnd.owes) fun _ => Owes.pure

theorem data_ow : Owes 1 0 (parseData : Dec R _ _) 1 := by
  have h2 := (expr'_ow (R := R)).up (k1 := 1)
  have h3 := (Owes.byteVec (R := R) (k := 0)).up (k1 := 1)
  have h4 := MemIdx.q (R := R)
  refine Owes.bind (Owes.mapErr Owes.u32) fun n => ?_
  owes

theorem elem_ow : Owes 2 0 (parseElem : Dec R _ _) 1 := by
  have h2 := (expr'_ow (R := R)).up (k1 := 2)
  have h4 := TableIdx.q (R := R)
  have h5 := RefType.q (R := R)
  have h6 : Owes 2 1 (elemFuncs : Dec R _ _) 1 := Owes.mapErr (Owes.list (FuncIdx.ow (k := 0))).up
  have h7 : Owes 2 1 (elemExprs : Dec R _ _) 1 := Owes.mapErr (Owes.list expr'_ow).up
  have h8 : Quiet (R := R) parseElemKind := by unfold parseElemKind; quiet
  refine Owes.bind (Owes.mapErr Owes.u32) fun n => ?_
  owes

theorem export_ow : Owes 1 0 (parseExport : Dec R _ _) 1 := by
  have h1 := u32_q (R := R)
  have h3 : ∀ b n, Quiet (R := R) (ExternIdx.from b n) := by
    intro b n; unfold ExternIdx.from; quiet
  refine Owes.bind (Owes.mapErr name_ow) fun _ => Owes.bind (c1 := 1) (by owes) fun _ => Owes.bind (c1 := 1) (by owes)
    fun _ => Owes.bind (Owes.mapErr (h3 _ _).owes) fun _ => Owes.pure

theorem import_ow : Owes 1 0 (parseImport : Dec R _ _) 1 :=
  Owes.bind (Owes.mapErr name_ow) fun _ => Owes.bind (Owes.mapErr name_ow.up) fun _ =>
    Owes.bind (Owes.mapErr ExternType.q.owes) fun _ => Owes.pure

theorem global_ow : Owes 1 0 (parseGlobal : Dec R _ _) 1 :=
  Owes.bind (Owes.mapErr GlobalType.ow) fun _ => Owes.bind (Owes.mapErr expr'_ow.up) fun _ => Owes.pure

theorem table_ow : Owes 1 0 (decodeTable : Dec R _ _) 1 := by
  have h1 := (expr'_ow (R := R)).up (k1 := 1)
  have h2 := TableType.q (R := R)
  refine Owes.byte fun b => Owes.ite ?_ (Owes.bind (Owes.mapErr (Owes.withChain TableType.ow)) fun _ => Owes.pure)
  owes

theorem Owes.sect {ε ε' α β : Type} {d : Dec R ε α} {f : ε → ε'} {g : α → Dec R ε' β} {k : Nat} (h : Owes k 0 d 1)
    (hg : ∀ v, Quiet (g v)) (hk : k ≤ 3 := by omega) : Owes 3 0 (Dec.mapErr f d >>= g) 0 :=
  Owes.then_quiet (Owes.mapErr (h.weaken hk (by omega) (by omega))) hg

theorem sectionBody_ow {k : SectionKind} {st : LoopState} : Owes 3 0 (decodeSectionBody k st : Dec R _ _) 0 := by
  cases k with
  | Custom => exact Owes.sect custom_ow fun _ => Quiet.pure
  | «Type» => exact Owes.sect (Owes.mapErr (Owes.list RecType.ow)) fun _ => Quiet.pure
  | Import => exact Owes.sect (Owes.mapErr (Owes.list import_ow)) fun _ => Quiet.pure
  | Function => exact Owes.sect (Owes.mapErr (Owes.list (TypeIdx.ow (k := 0)))) fun _ => Quiet.pure
  | Table => exact Owes.sect (Owes.mapErr (Owes.list table_ow)) fun _ => Quiet.pure
  | Memory => exact Owes.sect (Owes.mapErr (Owes.list (memType_ow (k := 0)))) fun _ => Quiet.pure
  | Tag => exact Owes.sect (Owes.mapErr (Owes.list (TagType.ow (k := 0)))) fun _ => Quiet.pure
  | Global => exact Owes.sect (Owes.mapErr (Owes.list global_ow)) fun _ => Quiet.pure
  | Export => exact Owes.sect (Owes.mapErr (Owes.list export_ow)) fun _ => Quiet.pure
  | Start => exact Owes.sect (Owes.mapErr (FuncIdx.ow (k := 0))) fun _ => Quiet.pure
  | Element => exact Owes.sect (Owes.mapErr (Owes.list elem_ow)) fun _ => Quiet.pure
  | DataCount => exact Owes.sect (Owes.mapErr (Owes.u32 (k := 0))) fun _ => Quiet.pure
  | Code =>
    refine Owes.sect (Owes.mapErr (Owes.list code_ow)) fun codes => Quiet.ite Quiet.err ?_
    exact Quiet.bind (fillFuncs_q _ _ _ _) fun _ => Quiet.pure
  | Data =>
    refine Owes.sect (Owes.mapErr (Owes.list data_ow)) fun datas => ?_
    split
    · exact Quiet.ite Quiet.err Quiet.pure
    · exact Quiet.pure

theorem section_ow {h : SectionHeader} {st : LoopState} : Owes 3 0 (decodeSection h st : Dec R _ _) 0 := by
  have h1 : Quiet (R := R) (st.module.validateSectionKindExpected h.kind) := by
    unfold Module.validateSectionKindExpected
    quiet
  exact Owes.bind h1.owes fun _ => Owes.bind (Owes.withTake sectionBody_ow) fun _ => Owes.ite Owes.err Owes.pure

theorem loop_ow : ∀ n st, Owes 3 0 (sectionLoop n st : Dec R _ _) 0
  | 0, _ => Owes.fuel
  | n + 1, st => by
    refine Owes.bind (Owes.mapErr header_q.owes) fun h => ?_
    cases h with
    | none => exact Owes.pure
    | some h => exact Owes.bind section_ow fun st => loop_ow n st

theorem module_ow : Owes 3 0 (decodeModule : Dec R _ _) 0 :=
  fun r _ _ hr => (Owes.bind (Owes.mapErr preamble_q.owes) fun _ => Owes.bind (loop_ow (Read.weight r + 1) _)
    fun _ => finalChecks_q.owes) r _ _ hr

end Wadec
