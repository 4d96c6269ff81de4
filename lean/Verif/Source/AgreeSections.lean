import Verif.Source.Sections
import Verif.Source.AgreeInstr
import Verif.Proof.CalmAll

/-! The translated functions of src/decode/sections/*.rs and `decode_expr` (Source/Sections.lean) are the
functions of the model. -/

set_option linter.unusedSectionVars false

namespace Wadec.Source

variable {R : Type} [Read R] [Fits R] {ε ε' α β : Type}

mutual
theorem contains_eq (i : Instr) : instruction_contains_data_index i = containsDataIdx i := by
  unfold instruction_contains_data_index
  cases i with
  | Block _ body => exact any_contains_eq body
  | Loop _ body => exact any_contains_eq body
  | TryTable _ _ body => exact any_contains_eq body
  | If _ th el =>
    show (List.any _ _ || _) = (anyContainsDataIdx th || optContainsDataIdx el)
    rw [any_contains_eq th, ← opt_contains_eq el]
    rfl
  | _ => rfl
theorem any_contains_eq : ∀ is : List Instr,
    List.any (List.map instruction_contains_data_index is) id = anyContainsDataIdx is
  | [] => rfl
  | i :: is => by
    rw [List.map_cons, List.any_cons, any_contains_eq is, contains_eq i]
    rfl
theorem opt_contains_eq : ∀ o : Option (List Instr),
    (match o with | some body => List.any (List.map instruction_contains_data_index body) id | none => false) =
      optContainsDataIdx o
  | none => rfl
  | some body => any_contains_eq body
end

/-! ### `decode_expr` -/

theorem expr_loop (p : Dec R ParseError ParseResult)
    {F : Unit → List Instr × Bool → Dec R ParseExpressionError (ForInStep (List Instr × Bool))}
    (hF : ∀ body enc, F () (body, enc) = Dec.mapErr ParseExpressionError.ParseInstruction p >>= fun parsed =>
      match parsed with
      | .Instruction i => pure (.yield (body ++ [i], if containsDataIdx i = true then true else enc))
      | .End => pure (.done (body, enc))
      | .Else => Dec.err .UnexpectedElse) :
    ∀ (n : Nat) (body : List Instr) (enc : Bool), forIn (Fuel.mk n) (body, enc) F = decodeExprLoop p n body enc
  | 0, _, _ => rfl
  | n + 1, body, enc => by
    show Fuel.forIn F (n + 1) (body, enc) = _
    rw [Fuel.forIn, hF, decodeExprLoop, dec_bind_assoc]
    refine bind_congr' fun parsed => ?_
    cases parsed with
    | Instruction i => exact expr_loop p hF n _ _
    | End => rfl
    | Else => rfl

theorem budget_congr {k : Nat → Dec R ε α} {d : Dec R ε α} {r : R} (h : k (Read.weight r + 1) = d) :
    (budget >>= k) r = d r := by rw [← h]; rfl

theorem decode_expr_eq : (decode_expr : Dec R _ _) = decodeExpr := by
  unfold decode_expr
  funext r
  refine budget_congr
    (d := decodeExprLoop (Wadec.parse (Read.weight r + 1)) (Read.weight r + 1) [] false) ?_
  dsimp only
  rw [expr_loop (Wadec.parse (Read.weight r + 1))]
  · exact dec_bind_pure _
  · intro body enc
    rw [parse_eq]
    refine bind_congr' fun parsed => ?_
    cases parsed with
    | Instruction i =>
      dsimp only
      rw [contains_eq]
      split <;> rfl
    | End => rfl
    | Else => rfl

theorem expr_q (g : ParseExpressionError → ε) (k : Expr × Bool → Dec R ε α) (k' : Expr → Dec R ε α)
    (h : ∀ e b, k (e, b) = k' e) :
    (Dec.mapErr g decodeExpr >>= k) = (Dec.mapErr g decodeExpr' >>= k') := by
  unfold decodeExpr'
  rw [mapErr_bind, dec_bind_assoc]
  exact bind_congr' fun x => h x.1 x.2

/-! ### Sections other than the code section -/

theorem list_q {T E : Type} (g : DecodeListError E → ε) (d : Dec R E T) :
    (do let x ← Dec.mapErr g (decode_list (FnMut.of d)); pure x.1) = Dec.mapErr g (decodeList d) := by
  rw [decode_list_q]
  exact dec_bind_pure _

theorem decode_section_custom_eq : (decode_section_custom : Dec R _ _) = decodeSectionCustom := by
  unfold decode_section_custom
  rw [decode_name_eq]
  rfl

theorem parse_data_eq : (parse_data : Dec R _ _) = parseData := by
  unfold parse_data parseData
  simp only [decode_u32_eq, decode_byte_vector_eq, memIdx_eq, decode_expr_eq, q_eq, mapErr_mapErr]
  refine bind_congr' fun n => ?_
  refine ite_congr' Iff.rfl (fun _ => ?_) fun _ => ite_congr' Iff.rfl (fun _ => rfl) fun _ =>
    ite_congr' Iff.rfl (fun _ => ?_) fun _ => rfl
  · exact expr_q _ _ _ fun e b => rfl
  · exact bind_congr' fun x => expr_q _ _ _ fun e b => rfl

theorem decode_data_section_eq : (decode_data_section : Dec R _ _) = decodeDataSection := by
  unfold decode_data_section
  rw [parse_data_eq]
  exact list_q _ _

theorem decode_datacount_section_eq : (decode_datacount_section : Dec R _ _) = decodeDatacountSection := by
  unfold decode_datacount_section
  rw [decode_u32_eq]
  rfl

theorem parse_elemkind_eq : (parse_elemkind : Dec R _ _) = parseElemKind := by
  unfold parse_elemkind
  rw [read_byte_eq]
  rfl

theorem fst_map : ((fun (x : Expr × Bool) => x.1) <$> decodeExpr : Dec R _ _) = decodeExpr' := rfl

theorem parse_elem_eq : (parse_elem : Dec R _ _) = parseElem := by
  unfold parse_elem parseElem
  simp only [decode_u32_eq, parse_elemkind_eq, tableIdx_eq, funcIdx_eq, refType_eq, decode_expr_eq, q_eq,
    mapErr_mapErr, fst_map, decode_list_q]
  refine bind_congr' fun n => ?_
  refine ite_congr' Iff.rfl (fun _ => ?_) fun _ => ite_congr' Iff.rfl (fun _ => rfl) fun _ =>
    ite_congr' Iff.rfl (fun _ => ?_) fun _ => ite_congr' Iff.rfl (fun _ => rfl) fun _ =>
    ite_congr' Iff.rfl (fun _ => ?_) fun _ => ite_congr' Iff.rfl (fun _ => rfl) fun _ =>
    ite_congr' Iff.rfl (fun _ => ?_) fun _ => ite_congr' Iff.rfl (fun _ => rfl) fun _ => rfl
  · exact expr_q _ _ _ fun e b => rfl
  · exact bind_congr' fun x => expr_q _ _ _ fun e b => rfl
  · exact expr_q _ _ _ fun e b => rfl
  · exact bind_congr' fun x => expr_q _ _ _ fun e b => rfl

theorem decode_element_section_eq : (decode_element_section : Dec R _ _) = decodeElementSection := by
  unfold decode_element_section
  rw [parse_elem_eq]
  exact list_q _ _

theorem parse_export_eq : (parse_export : Dec R _ _) = parseExport := by
  unfold parse_export
  rw [decode_name_eq, read_byte_eq, decode_u32_eq]
  simp only [q_eq, mapErr_mapErr]
  rfl

theorem decode_export_section_eq : (decode_export_section : Dec R _ _) = decodeExportSection := by
  unfold decode_export_section
  rw [parse_export_eq]
  exact list_q _ _

theorem decode_function_section_eq : (decode_function_section : Dec R _ _) = decodeFunctionSection := by
  unfold decode_function_section
  rw [typeIdx_eq]
  exact list_q _ _

theorem parse_global_eq : (parse_global : Dec R _ _) = parseGlobal := by
  unfold parse_global parseGlobal
  rw [globalType_eq, decode_expr_eq]
  exact bind_congr' fun x => expr_q _ _ _ fun e b => rfl

theorem decode_global_section_eq : (decode_global_section : Dec R _ _) = decodeGlobalSection := by
  unfold decode_global_section
  rw [parse_global_eq]
  exact list_q _ _

theorem parse_import_eq : (parse_import : Dec R _ _) = parseImport := by
  unfold parse_import
  rw [decode_name_eq, externType_eq]
  simp only [q_eq, mapErr_mapErr]
  rfl

theorem decode_import_section_eq : (decode_import_section : Dec R _ _) = decodeImportSection := by
  unfold decode_import_section
  rw [parse_import_eq]
  exact list_q _ _

theorem decode_memory_section_eq : (decode_memory_section : Dec R _ _) = decodeMemorySection := by
  unfold decode_memory_section
  rw [parse_memtype_eq]
  exact list_q _ _

theorem decode_start_section_eq : (decode_start_section : Dec R _ _) = decodeStartSection := by
  unfold decode_start_section
  rw [funcIdx_eq]
  rfl

theorem decode_table_eq : (decode_table : Dec R _ _) = decodeTable := by
  unfold decode_table decodeTable
  simp only [read_byte_eq, tableType_eq, decode_expr_eq]
  refine bind_congr' fun b => ite_congr' Iff.rfl (fun _ => ?_) fun _ => ?_
  · refine bind_congr' fun b => ite_congr' Iff.rfl (fun _ => rfl) fun _ => ?_
    exact bind_congr' fun x => expr_q _ _ _ fun e b => rfl
  · rw [withChain_bind_pure, q_eq, withChain_mapErr]
    rfl

theorem decode_table_section_eq : (decode_table_section : Dec R _ _) = decodeTableSection := by
  unfold decode_table_section
  rw [decode_table_eq]
  exact list_q _ _

theorem decode_tag_section_eq : (decode_tag_section : Dec R _ _) = decodeTagSection := by
  unfold decode_tag_section
  rw [tagType_eq]
  exact list_q _ _

theorem decode_type_section_eq : (decode_type_section : Dec R _ _) = decodeTypeSection := by
  unfold decode_type_section
  rw [recType_eq]
  exact list_q _ _

/-! ### The code section: `limit()` of the `Take` -/

theorem take_read_limit (k : Nat) (t : Take R) : (Read.read k t).2.limit ≤ t.limit := by
  simp only [Read.read, Take.read]
  split
  · exact Nat.le_refl _
  · generalize Read.read (min k t.limit) t.inner = o
    obtain ⟨res, i⟩ := o
    cases res with
    | ok bs => exact Nat.sub_le _ _
    | error e => exact Nat.le_refl _

/-- Reading never raises the limit of a `Take`. -/
theorem limit_watched (n : Nat) : Watched (fun t : Take R => t.limit ≤ n) (fun t => t.limit ≤ n) where
  ok := id
  data := by
    intro k t b bs t' h _ hr
    have := take_read_limit k t
    rw [hr] at this
    exact Nat.le_trans this h
  int := by
    intro k t t' h _ hr
    have := take_read_limit k t
    rw [hr] at this
    exact Nat.le_trans this h
  stop := by
    intro k t h _
    exact Nat.le_trans (take_read_limit k t) h
  reserve := id

theorem onTake_eq {n : UInt64} {m : Nat} (hn : n.toNat = m) {d : Dec (Take R) ε α} {k : α → Dec (Take R) ε β}
    {k' : α → Nat → Dec R ε β}
    (hd : ∀ r a t, d ⟨m, r⟩ = (.ok a, t) → t.limit ≤ m)
    (hk : ∀ a l r, l ≤ m → (k a ⟨l, r⟩).1 = (k' a l r).1 ∧ (k a ⟨l, r⟩).2.inner = (k' a l r).2) :
    onTake n (d >>= k) = (Dec.withTake m d >>= fun x => k' x.1 x.2) := by
  funext r
  simp only [onTake, Dec.withTake, bind_eq, Dec.bind, hn]
  have h := hd r
  generalize d ⟨m, r⟩ = o at h
  obtain ⟨res, t⟩ := o
  cases res with
  | ok a =>
    have := hk a t.limit t.inner (h a t rfl)
    exact Prod.ext this.1 this.2
  | _ => rfl

theorem limit_ne {l : Nat} (h : l < 2 ^ 64) : UInt64.ofNat l ≠ 0 ↔ l ≠ 0 := by
  refine not_congr ⟨fun h' => ?_, fun h' => by rw [h']; rfl⟩
  have := congrArg UInt64.toNat h'
  rwa [UInt64.toNat_ofNat_of_lt' h] at this

theorem sub_limit {n : UInt64} {m l : Nat} (hn : n.toNat = m) (hm : m < 2 ^ 64) (hl : l ≤ m) :
    (sub n (UInt64.ofNat l) : Dec R ε UInt64) = pure (UInt64.ofNat (m - l)) := by
  have hl' : (UInt64.ofNat l).toNat = l := UInt64.toNat_ofNat_of_lt' (Nat.lt_of_le_of_lt hl hm)
  rw [sub]
  simp only [CheckedSub.sub_]
  have hle : UInt64.ofNat l ≤ n := by rw [UInt64.le_iff_toNat_le, hl', hn]; exact hl
  rw [if_pos hle, unwrap_some_some]
  congr 1
  apply UInt64.toNat_inj.1
  rw [UInt64.toNat_sub_of_le _ _ hle, hl', hn, UInt64.toNat_ofNat_of_lt' (Nat.lt_of_le_of_lt (Nat.sub_le _ _) hm)]

theorem parse_code_local_eq (st : UInt64) :
    (parse_code_local st (From.from_ (4294967295 : UInt32)) : Dec R _ _) = parseCodeLocal st := by
  unfold parse_code_local parseCodeLocal
  rw [decode_u32_eq, valType_eq, q_self]
  refine bind_congr' fun count => ?_
  rw [add]
  simp only [CheckedAdd.add_, unwrap_some_ite, ite_bind, dec_pure_bind, panic_bind]
  rw [show (From.from_ count : UInt64).toNat = count.toNat from by simp [From.from_]]
  exact ite_lt_ge _ _ _ _ _ fun _ => rfl

theorem parse_code_eq : (parse_code : Dec R _ _) = parseCode := by
  unfold parse_code parseCode
  rw [decode_u32_eq, q_self]
  refine bind_congr' fun size => ?_
  have hn : (From.from_ size : UInt64).toNat = size.toNat := by simp [From.from_]
  have hs : size.toNat < 2 ^ 64 := Nat.lt_of_lt_of_le size.toNat_lt (by decide)
  refine Eq.trans (b := onTake (From.from_ size) (parseCodeBody >>= fun x => do
    if (← limit) ≠ 0 then
      Dec.err (DecodeCodeError.EntrySizeMismatch (declared_bytes := size) (leftover_bytes := (← limit))
        (consumed_bytes := (← sub (From.from_ size : UInt64) (← limit))))
    return ({ size := size, locals := x.1, expr := x.2.1, encountered_data_index := x.2.2 } : Code))) ?_ ?_
  · congr 1
    unfold parseCodeBody
    simp only [decode_list_eqS, decode_expr_eq, q_eq]
    simp only [parse_code_local_eq, dec_bind_assoc, dec_pure_bind]
    rfl
  · refine onTake_eq (k' := fun (x : List Local × Expr × Bool) l => (if l ≠ 0 then
        Dec.err (.EntrySizeMismatch size (UInt64.ofNat l) (UInt64.ofNat (size.toNat - l)))
      else pure ⟨size, x.1, x.2.1, x.2.2⟩ : Dec R DecodeCodeError Code)) hn (fun r a t h => ?_) fun a l r hl => ?_
    · have := (codeBody_calm (limit_watched (R := R) size.toNat) ⟨size.toNat, r⟩ (Nat.le_refl _)).1
      rw [h] at this
      exact this
    · have h1 := limit_ne (Nat.lt_of_le_of_lt hl hs)
      have h2 := sub_limit (R := Take R) (ε := DecodeCodeError) hn hs hl
      by_cases h : l = 0
      · subst h
        exact ⟨rfl, rfl⟩
      · simp only [limit, bind_eq, Dec.bind]
        rw [if_pos (h1.2 h), if_pos h]
        simp only [limit, Dec.bind, h2]
        exact ⟨rfl, rfl⟩

theorem decode_code_section_eq : (decode_code_section : Dec R _ _) = decodeCodeSection := by
  unfold decode_code_section
  rw [parse_code_eq]
  exact list_q _ _

end Wadec.Source
