import Verif.Proof.LogAll

/-! What a decoder does to its reader is a sequence of reads and allocation requests, whatever the
outcome (C54). -/

namespace Wadec

variable {R ε ε' α β σ : Type} [Read R]

def Uses (d : Dec R ε α) : Prop :=
  ∀ (I : R → R → Prop), (∀ r, I r r) → (∀ a b c, I a b → I b c → I a c) →
    (∀ n r, 0 < n → I r (Read.read n r).2) → (∀ n r, I r (Read.reserve n r)) → ∀ r, I r (d r).2

theorem Quiet.uses {d : Dec R ε α} (h : Quiet d) : Uses d := fun I h1 h2 h3 _ r => h I h1 h2 h3 r

namespace Uses

theorem bind {d : Dec R ε α} {f : α → Dec R ε β} (hd : Uses d) (hf : ∀ v, Uses (f v)) :
    Uses (d >>= f) := by
  intro I h1 h2 h3 h4 r
  have h := hd I h1 h2 h3 h4 r
  simp only [Bind.bind, Dec.bind]
  cases hr : d r with
  | mk res r' =>
    rw [hr] at h
    cases res with
    | ok v => exact h2 _ _ _ h (hf v I h1 h2 h3 h4 r')
    | _ => exact h

theorem mapErr {d : Dec R ε α} {f : ε → ε'} (hd : Uses d) : Uses (d.mapErr f) := by
  intro I h1 h2 h3 h4 r
  have h := hd I h1 h2 h3 h4 r
  simp only [Dec.mapErr]
  cases hr : d r with
  | mk res r' =>
    rw [hr] at h
    cases res <;> exact h

theorem ite {c : Prop} [Decidable c] {a b : Dec R ε α} (ha : Uses a) (hb : Uses b) :
    Uses (if c then a else b) := by
  split <;> assumption

theorem withChain {b : UInt8} {d : Dec (Chain R) ε α} (hd : Uses d) : Uses (Dec.withChain b d) := by
  intro I h1 h2 h3 h4 r
  refine hd (fun c c' => I c.inner c'.inner) (fun _ => h1 _) (fun _ _ _ => h2 _ _ _) ?_
    (fun n c => h4 n c.inner) ⟨[b], r⟩
  intro n c hn
  simp only [Read.read, Chain.read]
  split
  · exact h3 _ _ hn
  · exact h1 _

theorem withTake {n : Nat} {d : Dec (Take R) ε α} (hd : Uses d) : Uses (Dec.withTake n d) := by
  intro I h1 h2 h3 h4 r
  have h := hd (fun c c' => I c.inner c'.inner) (fun _ => h1 _) (fun _ _ _ => h2 _ _ _) (by
    intro n t hn
    simp only [Read.read, Take.read]
    split
    · exact h1 _
    · have := h3 (min n t.limit) t.inner (by omega)
      split <;> rename_i hr <;> rw [hr] at this <;> exact this) (fun n c => h4 n c.inner) ⟨n, r⟩
  simp only [Dec.withTake]
  split <;> rename_i hr <;> rw [hr] at h <;> exact h

theorem reserve {n : Nat} : Uses (Dec.reserve n : Dec R ε Unit) := fun _ _ _ _ h4 r => h4 n r

theorem readByte : Uses (R := R) Wadec.readByte := Quiet.readByte.uses

end Uses

/-! ### Decoders with lists -/

section

theorem byteVec_us : Uses (decodeByteVector : Dec R _ _) :=
  Uses.bind (Uses.mapErr u32_q.uses) fun n => Uses.bind (Uses.reserve) fun _ =>
    Quiet.uses (Quiet.mapErr Quiet.readExact)

theorem name_us : Uses (decodeName : Dec R _ _) := by
  refine Uses.bind (Uses.mapErr byteVec_us) fun v => ?_
  split
  · exact Quiet.pure.uses
  · exact Quiet.err.uses

theorem listLoop_us {ε α σ : Type} {f : σ → Dec R ε (α × σ)} (hf : ∀ st, Uses (f st)) :
    ∀ n i st items, Uses (decodeListLoop f n i st items)
  | 0, _, _, _ => Quiet.pure.uses
  | n + 1, i, st, items => Uses.bind (Uses.mapErr (hf st)) fun ⟨_, _⟩ => listLoop_us hf n _ _ _

theorem listS_us {ε α σ : Type} {f : σ → Dec R ε (α × σ)} {st : σ} (hf : ∀ st, Uses (f st)) :
    Uses (decodeListS f st) :=
  Uses.bind (Uses.mapErr u32_q.uses) fun n => Uses.bind (Uses.reserve) fun _ => listLoop_us hf _ _ _ _

theorem list_us {ε α : Type} {f : Dec R ε α} (hf : Uses f) : Uses (decodeList f) :=
  Uses.bind (listS_us fun _ => Uses.bind hf fun _ => Quiet.pure.uses) fun ⟨_, _⟩ => Quiet.pure.uses

theorem list_qu {ε α : Type} {f : Dec R ε α} (hf : Quiet f) : Uses (decodeList f) := list_us hf.uses

theorem resultType_us : Uses (decodeResultType : Dec R _ _) := Uses.mapErr (list_qu ValType.q)

theorem CompType.uses : Uses (CompType.decode : Dec R _ _) := by
  refine Uses.bind (Quiet.uses (by quiet)) fun b => Uses.ite ?_ (Uses.ite ?_ (Uses.ite ?_ Quiet.err.uses))
  · exact Uses.bind (Uses.mapErr fieldType_q.uses) fun _ => Quiet.pure.uses
  · exact Uses.bind (Uses.mapErr (list_qu fieldType_q)) fun _ => Quiet.pure.uses
  · exact Uses.bind (Uses.mapErr resultType_us) fun _ => Uses.bind (Uses.mapErr resultType_us) fun _ => Quiet.pure.uses

theorem SubType.uses : Uses (SubType.decode : Dec R _ _) := by
  refine Uses.bind (Uses.mapErr Uses.readByte) fun b => Uses.ite ?_ ?_
  · exact Uses.bind (Uses.mapErr (list_qu TypeIdx.q)) fun _ => Uses.bind (Uses.mapErr CompType.uses) fun _ => Quiet.pure.uses
  · exact Uses.bind (Uses.mapErr (Uses.withChain CompType.uses)) fun _ => Quiet.pure.uses

theorem RecType.uses : Uses (RecType.decode : Dec R _ _) := by
  refine Uses.bind (Uses.mapErr Uses.readByte) fun b => Uses.ite ?_ ?_
  · exact Uses.bind (Uses.mapErr (list_us SubType.uses)) fun _ => Quiet.pure.uses
  · exact Uses.bind (Uses.mapErr (Uses.withChain SubType.uses)) fun _ => Quiet.pure.uses

/-- One step of an `Uses _` proof. -/
macro "ustep" : tactic => `(tactic| with_reducible first
  | assumption
  | exact Quiet.uses (by qleaf)
  | refine Uses.mapErr ?_ | refine Uses.bind ?_ fun _ => ?_ | refine Uses.ite ?_ ?_
  | refine list_qu ?_ | refine list_us ?_)

macro "uses" : tactic => `(tactic| repeat' (first | ustep | split))

theorem parseSimple_us {op : UInt8} : Uses (parseSimple op : Dec R _ _) := by
  have a1 := ValType.q (R := R)
  have a2 := TagIdx.q (R := R)
  have a3 := LabelIdx.q (R := R)
  have a4 := FuncIdx.q (R := R)
  have a5 := Memarg.q (R := R)
  have a6 := u32_q (R := R)
  have a7 := i32_q (R := R)
  have a8 := i64_q (R := R)
  have a9 := f32_q (R := R)
  have a10 := f64_q (R := R)
  have b1 : Quiet (R := R) ctlLabel := Quiet.mapErr LabelIdx.q
  have b2 : Quiet (R := R) ctlFunc := Quiet.mapErr FuncIdx.q
  have b3 : Quiet (R := R) ctlType := Quiet.mapErr TypeIdx.q
  have b4 : Quiet (R := R) ctlTable := Quiet.mapErr TableIdx.q
  have b5 : Quiet (R := R) refHeap := Quiet.mapErr HeapType.q
  have b6 : Quiet (R := R) varLocal := Quiet.mapErr LocalIdx.q
  have b7 : Quiet (R := R) varGlobal := Quiet.mapErr GlobalIdx.q
  have b8 : Quiet (R := R) tabTable := Quiet.mapErr TableIdx.q
  have b9 : Quiet (R := R) memMem := Quiet.mapErr MemIdx.q
  have c1 := fun op => parseFB_q (R := R) (op := op)
  have c2 := fun op => parseFC_q (R := R) (op := op)
  have c3 := fun op => parseFD_q (R := R) (op := op)
  unfold parseSimple
  repeat' (first | ustep | exact (c1 _).uses | exact (c2 _).uses | exact (c3 _).uses | split)

theorem parseSeq_us {p : Dec R ParseError ParseResult} (hp : Uses p) :
    ∀ n b acc, Uses (parseSeq p n b acc)
  | 0, _, _ => Quiet.fuel.uses
  | n + 1, b, acc => by
    refine Uses.bind hp fun v => ?_
    cases v with
    | Instruction i => exact parseSeq_us hp n b _
    | End => exact Quiet.pure.uses
    | Else => exact Uses.ite Quiet.pure.uses Quiet.err.uses

theorem parse_us : ∀ n, Uses (parse n : Dec R _ _)
  | 0 => Quiet.fuel.uses
  | n + 1 => by
    have ih := parseSeq_us (parse_us n)
    refine Uses.bind (Quiet.uses (by quiet)) fun v => ?_
    split
    · refine Uses.ite Quiet.pure.uses (Uses.ite Quiet.pure.uses (Uses.ite ?_ (Uses.ite ?_ ?_)))
      · refine Uses.bind (Uses.mapErr BlockType.q.uses) fun bt => Uses.bind (ih _ _ _) fun x => ?_
        refine Uses.ite Quiet.pure.uses (Uses.ite Quiet.pure.uses (Uses.ite ?_ Quiet.panic.uses))
        split
        · exact Quiet.pure.uses
        · exact Uses.bind (ih _ _ _) fun x => Quiet.pure.uses
        · exact Quiet.panic.uses
      · refine Uses.bind (Uses.mapErr BlockType.q.uses) fun bt => Uses.bind (Uses.mapErr (list_qu Catch.q)) fun c =>
          Uses.bind (ih _ _ _) fun x => Quiet.pure.uses
      · exact Uses.bind parseSimple_us fun _ => Quiet.pure.uses
    · exact Quiet.panic.uses

theorem exprLoop_us {p : Dec R ParseError ParseResult} (hp : Uses p) :
    ∀ n b e, Uses (decodeExprLoop p n b e)
  | 0, _, _ => Quiet.fuel.uses
  | n + 1, b, e => by
    refine Uses.bind (Uses.mapErr hp) fun v => ?_
    cases v with
    | Instruction i => exact exprLoop_us hp n _ _
    | End => exact Quiet.pure.uses
    | Else => exact Quiet.err.uses

theorem expr_us : Uses (decodeExpr : Dec R _ _) :=
  fun I h1 h2 h3 h4 r => exprLoop_us (parse_us _) _ _ _ I h1 h2 h3 h4 r

theorem expr'_us : Uses (decodeExpr' : Dec R _ _) := Uses.bind expr_us fun _ => Quiet.pure.uses

theorem codeLocal_us {st : UInt64} : Uses (parseCodeLocal st : Dec R _ _) := by
  refine Uses.bind (Uses.mapErr u32_q.uses) fun n => Uses.ite Quiet.panic.uses (Uses.ite Quiet.err.uses ?_)
  exact Uses.bind (Uses.mapErr ValType.q.uses) fun _ => Quiet.pure.uses

theorem codeBody_us : Uses (parseCodeBody : Dec R _ _) :=
  Uses.bind (Uses.mapErr (listS_us fun _ => codeLocal_us)) fun _ => Uses.bind (Uses.mapErr expr_us) fun _ =>
    Quiet.pure.uses

theorem code_us : Uses (parseCode : Dec R _ _) :=
  Uses.bind (Uses.mapErr u32_q.uses) fun _ => Uses.bind (Uses.withTake codeBody_us) fun _ =>
    Uses.ite Quiet.err.uses Quiet.pure.uses

theorem custom_us : Uses (decodeSectionCustom : Dec R _ _) :=
  Uses.bind (Uses.mapErr name_us) fun _ => Uses.bind (Uses.mapErr Quiet.readToEnd.uses) fun _ => Quiet.pure.uses

theorem data_us : Uses (parseData : Dec R _ _) := by
  have h1 := u32_q (R := R)
  have h2 := expr'_us (R := R)
  have h3 := byteVec_us (R := R)
  have h4 := MemIdx.q (R := R)
  unfold parseData; uses

theorem elem_us : Uses (parseElem : Dec R _ _) := by
  have h1 := u32_q (R := R)
  have h2 := expr'_us (R := R)
  have h4 := TableIdx.q (R := R)
  have h5 := RefType.q (R := R)
  have h6 : Uses (elemFuncs : Dec R _ _) := Uses.mapErr (list_qu FuncIdx.q)
  have h7 : Uses (elemExprs : Dec R _ _) := Uses.mapErr (list_us expr'_us)
  have h8 : Quiet (R := R) parseElemKind := by unfold parseElemKind; quiet
  unfold parseElem; uses

theorem export_us : Uses (parseExport : Dec R _ _) := by
  have h1 := u32_q (R := R)
  have h2 := name_us (R := R)
  have h3 : ∀ b n, Quiet (R := R) (ExternIdx.from b n) := by
    intro b n; unfold ExternIdx.from; quiet
  unfold parseExport
  refine Uses.bind (by uses) fun _ => Uses.bind (by uses) fun _ => Uses.bind (by uses) fun _ =>
    Uses.bind (Uses.mapErr (h3 _ _).uses) fun _ => Quiet.pure.uses

theorem import_us : Uses (parseImport : Dec R _ _) := by
  have h1 := name_us (R := R)
  have h2 := ExternType.q (R := R)
  unfold parseImport; uses

theorem global_us : Uses (parseGlobal : Dec R _ _) := by
  have h1 := expr'_us (R := R)
  have h2 := GlobalType.q (R := R)
  unfold parseGlobal; uses

theorem table_us : Uses (decodeTable : Dec R _ _) := by
  have h1 := expr'_us (R := R)
  have h2 := TableType.q (R := R)
  have h3 : ∀ b, Quiet (Dec.withChain b (TableType.decode : Dec (Chain R) _ _)) :=
    fun b => Quiet.withChain TableType.q
  unfold decodeTable
  refine Uses.bind (by uses) fun b => Uses.ite ?_ (Uses.bind (Uses.mapErr (h3 b).uses) fun _ => Quiet.pure.uses)
  uses

macro "usec" t:term : tactic => `(tactic|
  exact Uses.bind (Uses.mapErr $t) fun _ => Quiet.pure.uses)

theorem sectionBody_us {k : SectionKind} {st : LoopState} : Uses (decodeSectionBody k st : Dec R _ _) := by
  cases k with
  | Custom => usec custom_us
  | «Type» => usec (Uses.mapErr (list_us RecType.uses))
  | Import => usec (Uses.mapErr (list_us import_us))
  | Function => usec (Uses.mapErr (list_qu TypeIdx.q))
  | Table => usec (Uses.mapErr (list_us table_us))
  | Memory => usec (Uses.mapErr (list_qu memType_q))
  | Tag => usec (Uses.mapErr (list_qu TagType.q))
  | Global => usec (Uses.mapErr (list_us global_us))
  | Export => usec (Uses.mapErr (list_us export_us))
  | Start => usec (Uses.mapErr FuncIdx.q.uses)
  | Element => usec (Uses.mapErr (list_us elem_us))
  | DataCount => usec (Uses.mapErr u32_q.uses)
  | Code =>
    refine Uses.bind (Uses.mapErr (Uses.mapErr (list_us code_us))) fun codes => Uses.ite Quiet.err.uses ?_
    exact Uses.bind (fillFuncs_q _ _ _ _).uses fun _ => Quiet.pure.uses
  | Data =>
    refine Uses.bind (Uses.mapErr (Uses.mapErr (list_us data_us))) fun datas => ?_
    split
    · exact Uses.ite Quiet.err.uses Quiet.pure.uses
    · exact Quiet.pure.uses

theorem section_us {h : SectionHeader} {st : LoopState} : Uses (decodeSection h st : Dec R _ _) := by
  have h1 : Quiet (R := R) (st.module.validateSectionKindExpected h.kind) := by
    unfold Module.validateSectionKindExpected
    quiet
  exact Uses.bind h1.uses fun _ => Uses.bind (Uses.withTake sectionBody_us) fun _ => Uses.ite Quiet.err.uses Quiet.pure.uses

theorem loop_us : ∀ n st, Uses (sectionLoop n st : Dec R _ _)
  | 0, _ => Quiet.fuel.uses
  | n + 1, st => by
    refine Uses.bind (Uses.mapErr header_q.uses) fun h => ?_
    cases h with
    | none => exact Quiet.pure.uses
    | some h => exact Uses.bind section_us fun st => loop_us n st

theorem module_us : Uses (decodeModule : Dec R _ _) :=
  fun I h1 h2 h3 h4 r => (Uses.bind (Uses.mapErr preamble_q.uses) fun _ => Uses.bind (loop_us (Read.weight r + 1) _)
    fun _ => finalChecks_q.uses) I h1 h2 h3 h4 r

end

end Wadec
