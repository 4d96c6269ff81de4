import Verif.Proof.PaysAll

/-! C69: expressions, sections and modules pay for their steps. -/

namespace Wadec.Counted

variable {R : Type} {ε ε' α β σ : Type} [Metered R] {K : Nat} [hr : Rate K]

/-! ### Expressions -/

theorem scanned_any : ∀ is, scannedAny is ≤ total scanned is
  | [] => by simp [scannedAny]
  | i :: is => by
    have := scanned_any is
    rw [scannedAny, total_cons]
    split <;> omega

theorem scanned_opt (is : List Instr) : scannedOpt (some is) ≤ total scanned is := by
  rw [scannedOpt]; exact scanned_any is

theorem scanned_body {bt : BlockType} {is : List Instr} : scanned (.Block bt is) ≤ 1 + total scanned is ∧
    scanned (.Loop bt is) ≤ 1 + total scanned is ∧ scanned (.If bt is none) ≤ 1 + total scanned is := by
  have := scanned_any is
  refine ⟨by rw [scanned]; omega, by rw [scanned]; omega, ?_⟩
  rw [scanned, scannedOpt]
  split <;> omega

theorem scanned_try {bt : BlockType} {cs : List Catch} {is : List Instr} : scanned (.TryTable bt cs is) ≤ 1 + total scanned is := by
  have := scanned_any is
  rw [scanned]; omega

theorem scanned_if {bt : BlockType} {is js : List Instr} :
    scanned (.If bt is (some js)) ≤ 1 + total scanned is + total scanned js := by
  have := scanned_any is
  have := scanned_any js
  rw [scanned, scannedOpt]
  split <;> omega

/-- What is left behind an instruction: its search for data indices; behind a delimiter: most of its byte. -/
def spare (K : Nat) : ParseResult → Nat
  | .Instruction i => scanned i
  | _ => K - 6

omit hr in
theorem pays_parseSeq {p : Dec R ParseError ParseResult} (hp : Pays K 38 p (fun x => 39 + spare K x)) :
    ∀ n b acc, Pays K (39 + total scanned acc) (parseSeq p n b acc) (fun x => 39 + (K - 6) + total scanned x.1)
  | 0, _, _ => Pays.step (by omega) Pays.fuel
  | n + 1, b, acc => by
    refine Pays.step (by omega) (Pays.bind hp (by omega) fun x => ?_)
    cases x with
    | Instruction i =>
      refine Pays.weaken (pays_parseSeq hp n b (acc ++ [i])) ?_ fun v => ?_
      · rw [total_append, total_one]; simp only [spare]; omega
      · rw [total_append, total_one]; simp only [spare]; omega
    | End => exact Pays.pure (by simp only [spare]; omega)
    | Else =>
      refine Pays.ite (fun _ => Pays.pure ?_) fun _ => Pays.err
      simp only [spare]; omega

/-- Instructions that do not contain instructions are looked at once. -/
def Flat1 (i : Instr) : Prop := scanned i = 1

/-- the outcome of a decoder, whatever the reader -/
def Gives (d : Dec R ε α) (P : α → Prop) : Prop := ∀ r v r' n, d r = ((.ok v, r'), n) → P v

omit hr in
theorem Pays.bindGiven {c c1 : Nat} {c1' : α → Nat} {d : Dec R ε α} {f : α → Dec R ε β} {c2' : β → Nat} {P : α → Prop}
    (hd : Pays K c1 d c1') (hp : Gives d P) (hc : c1 ≤ c)
    (hf : ∀ v, P v → Pays K (c - c1 + c1' v) (f v) c2') : Pays K c (d >>= f) c2' := by
  intro r res r' n hx
  simp only [Bind.bind, Dec.bind] at hx
  cases hd' : d r with
  | mk x m =>
    obtain ⟨res1, r1⟩ := x
    rw [hd'] at hx
    have h1 := hd _ _ _ _ hd'
    cases res1 with
    | ok v =>
      simp only [Dec.more] at hx
      cases hf' : f v r1 with
      | mk y k =>
        rw [hf'] at hx
        cases hx
        have h2 := hf v (hp _ _ _ _ hd') _ _ _ _ hf'
        simp only [left] at h1
        omega
    | _ => cases hx; simp only [left] at *; omega

namespace Gives
omit hr [Metered R]
theorem step {d : Dec R ε α} {P : α → Prop} (h : Gives d P) : Gives (Dec.step d) P := by
  intro r v r' n hd
  simp only [Dec.step, Dec.more] at hd
  cases hx : d r with
  | mk x m => rw [hx] at hd; cases hd; exact h _ _ _ _ hx
theorem pure {v : α} {P : α → Prop} (h : P v) : Gives (R := R) (ε := ε) (Pure.pure v) P := by
  intro r w r' n hd; cases hd; exact h
theorem err {e : ε} {P : α → Prop} : Gives (R := R) (Dec.err e) P := by intro r w r' n hd; cases hd
theorem panic {P : α → Prop} : Gives (R := R) (ε := ε) Dec.panic P := by intro r w r' n hd; cases hd
theorem bind {d : Dec R ε α} {f : α → Dec R ε β} {P : β → Prop} (h : ∀ v, Gives (f v) P) : Gives (d >>= f) P := by
  intro r w r' n hd
  simp only [Bind.bind, Dec.bind] at hd
  cases hx : d r with
  | mk x m =>
    obtain ⟨res, r1⟩ := x
    rw [hx] at hd
    cases res with
    | ok v =>
      simp only [Dec.more] at hd
      cases hy : f v r1 with
      | mk y k => rw [hy] at hd; cases hd; exact h _ _ _ _ _ hy
    | _ => cases hd
theorem bindGiven {d : Dec R ε α} {f : α → Dec R ε β} {P : α → Prop} {Q : β → Prop} (hd : Gives d P)
    (h : ∀ v, P v → Gives (f v) Q) : Gives (d >>= f) Q := by
  intro r w r' n hx
  simp only [Bind.bind, Dec.bind] at hx
  cases hd' : d r with
  | mk x m =>
    obtain ⟨res, r1⟩ := x
    rw [hd'] at hx
    cases res with
    | ok v =>
      simp only [Dec.more] at hx
      cases hy : f v r1 with
      | mk y k => rw [hy] at hx; cases hx; exact h _ (hd _ _ _ _ hd') _ _ _ _ hy
    | _ => cases hx
theorem mapErr {d : Dec R ε α} {f : ε → ε'} {P : α → Prop} (hd : Gives d P) : Gives (d.mapErr f) P := by
  intro r w r' n hx
  simp only [Dec.mapErr] at hx
  cases hd' : d r with
  | mk x m =>
    obtain ⟨res, r1⟩ := x
    rw [hd'] at hx
    cases res <;> cases hx
    exact hd _ _ _ _ hd'
theorem take {n : Nat} {d : Dec (Take R) ε α} {P : α → Prop} (hd : Gives d P) : Gives (Dec.withTake n d) (fun x => P x.1) := by
  intro r w r' k hx
  simp only [Dec.withTake] at hx
  cases hd' : d ⟨n, r⟩ with
  | mk x m =>
    obtain ⟨res, r1⟩ := x
    rw [hd'] at hx
    cases res <;> cases hx
    exact hd _ _ _ _ hd'
theorem ite {p : Prop} [Decidable p] {a b : Dec R ε α} {P : α → Prop} (ha : Gives a P) (hb : Gives b P) :
    Gives (if p then a else b) P := by split <;> assumption
end Gives

/-- One structural step. -/
macro "gives1" : tactic => `(tactic| with_reducible first
  | refine Gives.step ?_ | exact Gives.err | exact Gives.panic
  | refine Gives.bind fun _ => ?_ | refine Gives.ite ?_ ?_)
macro "flat1" : tactic => `(tactic| (with_reducible refine Gives.pure ?_; unfold Flat1; simp only [scanned]; done))
macro "gives" : tactic => `(tactic| repeat' (first | gives1 | flat1 | (dsimp only; gives1) | split))

omit hr [Metered R] in
theorem flat_FB [Read R] (op : UInt32) : Gives (R := R) (parseFB op) Flat1 := by unfold parseFB; gives
omit hr [Metered R] in
theorem flat_FC [Read R] (op : UInt32) : Gives (R := R) (parseFC op) Flat1 := by unfold parseFC; gives
omit hr [Metered R] in
theorem flat_FD [Read R] (op : UInt32) : Gives (R := R) (parseFD op) Flat1 := by unfold parseFD; gives
omit hr [Metered R] in
theorem flat_simple [Read R] (op : UInt8) : Gives (R := R) (parseSimple op) Flat1 := by
  unfold parseSimple
  repeat' (first | gives1 | flat1 | exact flat_FB _ | exact flat_FC _ | exact flat_FD _ | (dsimp only; gives1) | split)

theorem pays_parse : ∀ n, Pays (R := R) K 38 (parse n) (fun x => 39 + spare K x)
  | 0 => Pays.step (by omega) Pays.fuel
  | n + 1 => by
    have hK : 64 ≤ K := Rate.le
    have ih := fun n' b acc c c' => Pays.weaken (c := c) (c' := c') (pays_parseSeq (pays_parse n) n' b acc)
    unfold parse
    refine Pays.step (by omega) (Pays.bind (Pays.mapErr (pays_readExact' 1 (c := 37) (by omega))) (by omega) fun op => ?_)
    match op with
    | [] => exact Pays.panic
    | _ :: _ :: _ => exact Pays.panic
    | [op] =>
      dsimp only
      refine Pays.ite (fun _ => Pays.pure (by simp only [spare]; omega)) fun _ =>
        Pays.ite (fun _ => Pays.pure (by simp only [spare]; omega)) fun _ => Pays.ite (fun _ => ?_) fun _ => ?_
      · refine Cost.bind (by omega) fun bt => ?_
        refine Pays.bind (pays_parseSeq (pays_parse n) n _ []) (by rw [total_nil]; omega) fun ⟨in1, parsed⟩ => ?_
        rw [total_nil]
        have hb := scanned_body (bt := bt) (is := in1)
        refine Pays.ite (fun _ => Pays.pure ?_) fun _ => Pays.ite (fun _ => Pays.pure ?_) fun _ => Pays.ite (fun _ => ?_)
          fun _ => Pays.panic
        · simp only [spare]; omega
        · simp only [spare]; omega
        · cases parsed with
          | Instruction i => exact Pays.panic
          | End => exact Pays.pure (by simp only [spare]; omega)
          | Else =>
            refine Pays.bind (pays_parseSeq (pays_parse n) n false []) (by rw [total_nil]; simp only; omega) fun ⟨in2, _⟩ => ?_
            have := scanned_if (bt := bt) (is := in1) (js := in2)
            exact Pays.pure (by rw [total_nil]; simp only [spare]; omega)
      · refine Pays.ite (fun _ => ?_) fun _ => ?_
        · refine Cost.bind (by omega) fun bt => Cost.bind (by omega) fun cs => ?_
          refine Pays.bind (pays_parseSeq (pays_parse n) n false []) (by rw [total_nil]; omega) fun ⟨in1, _⟩ => ?_
          have := scanned_try (bt := bt) (cs := cs) (is := in1)
          exact Pays.pure (by rw [total_nil]; simp only [spare]; omega)
        · refine Pays.bindGiven (Free.pays (s := 17)) (flat_simple op) (by omega) fun i hi => Pays.pure ?_
          simp only [spare, Flat1] at *
          omega

theorem pays_exprLoop {p : Dec R ParseError ParseResult} (hp : Pays K 38 p (fun x => 39 + spare K x)) :
    ∀ n b e, Pays K 39 (decodeExprLoop p n b e) (fun _ => K + 33)
  | 0, _, _ => Pays.step (by omega) Pays.fuel
  | n + 1, b, e => by
    refine Pays.step (by omega) (Pays.bind (Pays.mapErr hp) (by omega) fun x => ?_)
    cases x with
    | Instruction i =>
      exact Pays.chargeBind (by simp only [spare]; omega)
        (Pays.weaken (pays_exprLoop hp n _ _) (by simp only [spare]; omega) fun _ => by simp only [spare]; omega)
    | End => exact Pays.pure (by simp only [spare]; omega)
    | Else => exact Pays.err

instance cost_decodeExpr : Cost (R := R) K decodeExpr 40 := ⟨by
  refine Pays.step (by omega) ?_
  intro r res r' n h
  have := pays_exprLoop (K := K) (pays_parse (R := R) (Read.weight r + 1)) (Read.weight r + 1) [] false r res r' n h
  cases res <;> simp only [left] at * <;> omega⟩

/-! ### Code -/

/-- the locals that the groups stand for -/
def counts (locals : List Local) : Nat := (locals.map (fun l => l.count.toNat)).sum

omit hr [Metered R] in
theorem gives_local [Read R] (st : UInt64) : Gives (R := R) (parseCodeLocal st)
    (fun x => x.2.toNat = st.toNat + x.1.count.toNat ∧ x.2.toNat ≤ 4294967295) := by
  unfold parseCodeLocal
  refine Gives.step (Gives.bind fun count => ?_)
  split
  · exact Gives.panic
  · rename_i h
    dsimp only
    split
    · exact Gives.err
    · rename_i h2
      refine Gives.bind fun t => Gives.pure ?_
      have hm : maxLocals.toNat = 4294967295 := rfl
      rw [UInt64.lt_iff_toNat_lt, hm, Nat.not_lt] at h2
      refine ⟨?_, h2⟩
      rw [UInt64.toNat_add, UInt32.toNat_toUInt64]
      exact Nat.mod_eq_of_lt (by omega)

omit hr [Metered R] in
theorem gives_locals [Read R] : ∀ n i st items, counts items = st.toNat → st.toNat ≤ 4294967295 →
    Gives (R := R) (decodeListLoop parseCodeLocal n i st items) (fun x => counts x.1 ≤ 4294967295)
  | 0, i, st, items, h1, h2 => Gives.step (Gives.pure (by simp only; omega))
  | n + 1, i, st, items, h1, h2 => by
    refine Gives.step ?_
    refine Gives.bindGiven (P := fun x : Local × UInt64 => x.2.toNat = st.toNat + x.1.count.toNat ∧ x.2.toNat ≤ 4294967295)
      (Gives.mapErr (gives_local st)) fun ⟨l, st'⟩ hl => ?_
    refine gives_locals n _ st' _ ?_ hl.2
    have : counts (items ++ [l]) = counts items + l.count.toNat := by simp [counts]
    rw [this, h1, hl.1]

omit hr [Metered R] in
theorem gives_body [Read R] : Gives (R := R) parseCodeBody (fun x => counts x.1 ≤ 4294967295) := by
  refine Gives.step (Gives.bindGiven (P := fun x : List Local × UInt64 => counts x.1 ≤ 4294967295) (Gives.mapErr ?_)
    fun ⟨ls, _⟩ h => Gives.bind fun ⟨_, _⟩ => Gives.pure h)
  exact Gives.step (Gives.bind fun n => Gives.bind fun _ => gives_locals _ _ _ _ rfl (by decide))

omit hr [Metered R] in
theorem gives_code [Read R] : Gives (R := R) parseCode (fun c => counts c.locals ≤ 4294967295) := by
  refine Gives.step (Gives.bind fun size => Gives.bindGiven
    (P := fun x : (List Local × Expr × Bool) × Nat => counts x.1.1 ≤ 4294967295) (Gives.take gives_body) fun ⟨⟨_, _, _⟩, _⟩ h => ?_)
  dsimp only
  exact Gives.ite Gives.err (Gives.pure h)

instance cost_local (st : UInt64) : Cost (R := R) K (parseCodeLocal st) 8 := ⟨by
  have hK : 64 ≤ K := Rate.le
  unfold parseCodeLocal; pay⟩

theorem pays_body : Pays (R := R) K 11 parseCodeBody (fun x => 2 * K - 40 + x.1.length) := by
  have hK : 64 ≤ K := Rate.le
  refine Pays.step (by omega) (Pays.bind (Pays.mapErr (pays_listS (a := 8) (g := fun _ => 1)
    (fun st => Pays.weaken Cost.pays (Nat.le_refl _) fun _ => by omega) (by omega))) (by omega) fun ⟨ls, _⟩ => ?_)
  have := total_length ls
  simp only at this ⊢
  rw [this]
  exact Cost.bind (by omega) fun ⟨_, _⟩ => Pays.pure (by simp only; omega)

/-- what storing the code of a function costs -/
def storing (push : Nat) (c : Code) : Nat := 1 + (c.locals.length + push * counts c.locals)

theorem pays_code {push : Nat} (hp : 64 + push * 4294967295 ≤ K) : Pays (R := R) K 8 parseCode (fun c => 9 + storing push c) := by
  have hK : 64 ≤ K := Rate.le
  have : Pays (R := R) K 8 parseCode (fun c => 3 * K - 51 + c.locals.length) := by
    refine Pays.step (by omega) (Cost.bind (by omega) fun size => ?_)
    refine Pays.bind (Pays.take pays_body) (by omega) fun ⟨⟨_, _, _⟩, _⟩ => ?_
    exact Pays.ite (fun _ => Pays.err) fun _ => Pays.pure (by simp only; omega)
  intro r res r' n h
  have h1 := this r res r' n h
  cases res with
  | ok c =>
    have h2 := gives_code r c r' n h
    have h3 := Nat.mul_le_mul_left push h2
    simp only [left, storing] at *
    omega
  | _ => exact h1

theorem pays_codeSection {push : Nat} (hp : 64 + push * 4294967295 ≤ K) :
    Pays (R := R) K 12 decodeCodeSection (fun cs => K + total (storing push) cs) :=
  Pays.step (by omega) (Pays.mapErr (Pays.weaken (pays_list (storing push) (pays_code hp) (by omega)) (by omega) fun _ => by omega))

theorem pays_fill (push : Nat) : ∀ codes i funcs enc,
    Pays (R := R) K (1 + total (storing push) codes) (fillFuncs push codes i funcs enc) (fun _ => 0)
  | [], _, _, _ => Pays.step (by omega) (Pays.pure (by omega))
  | code :: codes, i, funcs, enc => by
    rw [total_cons]
    refine Pays.step (by omega) ?_
    cases funcs[i]? with
    | none => exact Pays.panic
    | some f =>
      refine Pays.chargeBind ?_ (Pays.weaken (pays_fill push codes _ _ _) ?_ fun _ => Nat.zero_le _)
      · simp only [storing, counts]; omega
      · simp only [storing, counts]; omega

/-! ### Sections -/

instance cost_decodeSectionCustom : Cost (R := R) K decodeSectionCustom 15 := ⟨by
  have hK : 64 ≤ K := Rate.le
  unfold decodeSectionCustom; 
  refine Pays.step (by omega) (Cost.bind (by omega) fun _ => ?_)
  exact Pays.bind (Pays.mapErr (pays_readToEnd (Nat.le_refl _))) (by omega) fun _ => Pays.pure (by omega)⟩
instance cost_decodeExpr2 : Cost (R := R) K decodeExpr' 41 := ⟨by
  have hK : 64 ≤ K := Rate.le
  unfold decodeExpr'; pay⟩
instance cost_parseData : Cost (R := R) K parseData 8 := ⟨by
  have hK : 64 ≤ K := Rate.le
  unfold parseData; pay⟩
instance cost_decodeDataSection : Cost (R := R) K decodeDataSection 12 := ⟨by
  have hK : 64 ≤ K := Rate.le
  unfold decodeDataSection; pay⟩
instance cost_decodeDatacountSection : Cost (R := R) K decodeDatacountSection 8 := ⟨by
  have hK : 64 ≤ K := Rate.le
  unfold decodeDatacountSection; pay⟩
instance cost_parseElemKind : Cost (R := R) K parseElemKind 6 := ⟨by
  have hK : 64 ≤ K := Rate.le
  unfold parseElemKind; pay⟩
theorem pays_idxs {f : Dec R ε α} [h : Cost K f 8] : Pays K 11 (decodeList f) (fun x => K + x.length) := by
  have hK : 64 ≤ K := Rate.le
  refine Pays.weaken (pays_list (fun _ => 1) (Pays.weaken h.pays (Nat.le_refl _) fun _ => ?_) (by omega)) (Nat.le_refl _) fun v => ?_
  · omega
  · rw [total_length]; omega
theorem pays_elemFuncs : Pays (R := R) K 12 elemFuncs (fun x => K + x.length) :=
  Pays.step (by omega) (Pays.mapErr (Pays.weaken pays_idxs (by omega) fun _ => by omega))
theorem pays_elemFuncs_bind {c : Nat} {f : List FuncIdx → Dec R DecodeElementError β} {c' : β → Nat} (hc : 12 ≤ c)
    (hf : ∀ v, Pays K (c - 12 + (K + v.length)) (f v) c') : Pays K c (elemFuncs >>= f) c' := Pays.bind pays_elemFuncs hc hf
macro_rules | `(tactic| pay1) => `(tactic| with_reducible refine pays_elemFuncs_bind (by omega) fun _ => ?_)
instance cost_elemExprs : Cost (R := R) K elemExprs 12 := ⟨by
  have hK : 64 ≤ K := Rate.le
  unfold elemExprs; pay⟩
instance cost_parseElem : Cost (R := R) K parseElem 8 := ⟨by
  have hK : 64 ≤ K := Rate.le
  unfold parseElem; pay⟩
instance cost_decodeElementSection : Cost (R := R) K decodeElementSection 12 := ⟨by
  have hK : 64 ≤ K := Rate.le
  unfold decodeElementSection; pay⟩
instance free_from (b : UInt8) (idx : UInt32) : Free (R := R) K (ExternIdx.from b idx) 1 := ⟨by unfold ExternIdx.from; pay⟩
instance cost_parseExport : Cost (R := R) K parseExport 13 := ⟨by
  have hK : 64 ≤ K := Rate.le
  unfold parseExport; pay⟩
instance cost_decodeExportSection : Cost (R := R) K decodeExportSection 12 := ⟨by
  have hK : 64 ≤ K := Rate.le
  unfold decodeExportSection; pay⟩
theorem pays_functionSection : Pays (R := R) K 12 decodeFunctionSection (fun x => K + x.length) :=
  Pays.step (by omega) (Pays.mapErr (Pays.weaken pays_idxs (by omega) fun _ => by omega))
instance cost_decodeStartSection : Cost (R := R) K decodeStartSection 9 := ⟨by
  have hK : 64 ≤ K := Rate.le
  unfold decodeStartSection; pay⟩
instance cost_decodeTagSection : Cost (R := R) K decodeTagSection 12 := ⟨by
  have hK : 64 ≤ K := Rate.le
  unfold decodeTagSection; pay⟩
instance cost_decodeTypeSection : Cost (R := R) K decodeTypeSection 12 := ⟨by
  have hK : 64 ≤ K := Rate.le
  unfold decodeTypeSection; pay⟩
instance cost_decodeMemorySection : Cost (R := R) K decodeMemorySection 12 := ⟨by
  have hK : 64 ≤ K := Rate.le
  unfold decodeMemorySection; pay⟩
instance cost_parseGlobal : Cost (R := R) K parseGlobal 20 := ⟨by
  have hK : 64 ≤ K := Rate.le
  unfold parseGlobal; pay⟩
instance cost_decodeGlobalSection : Cost (R := R) K decodeGlobalSection 12 := ⟨by
  have hK : 64 ≤ K := Rate.le
  unfold decodeGlobalSection; pay⟩
instance cost_parseImport : Cost (R := R) K parseImport 13 := ⟨by
  have hK : 64 ≤ K := Rate.le
  unfold parseImport; pay⟩
instance cost_decodeImportSection : Cost (R := R) K decodeImportSection 12 := ⟨by
  have hK : 64 ≤ K := Rate.le
  unfold decodeImportSection; pay⟩
instance cost_decodeTable : Cost (R := R) K decodeTable 19 := ⟨by
  have hK : 64 ≤ K := Rate.le
  unfold decodeTable; pay⟩
instance : Small 19 := ⟨by decide⟩
instance cost_decodeTableSection : Cost (R := R) K decodeTableSection 12 := ⟨by
  have hK : 64 ≤ K := Rate.le
  unfold decodeTableSection; pay⟩

/-! ### The module -/

instance free_validate (m : Module) (k : SectionKind) : Free (R := R) K (Module.validateSectionKindExpected m k) 1 := ⟨by
  unfold Module.validateSectionKindExpected; pay⟩
instance free_final (st : LoopState) : Free (R := R) K (finalChecks st) 1 := ⟨by unfold finalChecks; pay⟩
instance cost_headerRest (id : UInt8) : Cost (R := R) K (sectionHeaderRest id) 8 := ⟨by
  have hK : 64 ≤ K := Rate.le
  unfold sectionHeaderRest; pay⟩

theorem pays_preamble : Pays (R := R) K 3 parsePreamble (fun _ => 0) := by
  unfold parsePreamble
  refine Pays.step (by omega) (Pays.bind (Pays.mapErr (pays_readExact 8 (Nat.le_refl 2))) (by omega) fun _ => ?_)
  pay

/-- what is left behind a section header -/
def behind (K : Nat) : Option SectionHeader → Nat
  | none => 0
  | some _ => K

theorem pays_header : Pays (R := R) K 14 decodeSectionHeader (behind K) := by
  refine Pays.step (by omega) ?_
  intro r res r' n h
  have hb := (cost_readByte (R := R) (K := K)).pays r
  cases hx : (readByte : Dec R IoError UInt8) r with
  | mk x m =>
    obtain ⟨res1, r1⟩ := x
    dsimp only at h
    rw [hx] at h
    have h1 := hb _ _ _ hx
    cases res1 with
    | ok id =>
      simp only [Dec.more] at h
      cases hy : (sectionHeaderRest id : Dec R _ _) r1 with
      | mk y k =>
        rw [hy] at h
        obtain ⟨res2, r2⟩ := y
        cases h
        have h2 := (cost_headerRest (R := R) (K := K) id).pays _ _ _ _ hy
        cases res with
        | ok o => cases o <;> simp only [left, behind] at * <;> omega
        | _ => simp only [left] at *; omega
    | err e =>
      simp only at h
      split at h <;> cases h <;> simp only [left, behind] at * <;> omega
    | _ => cases h; simp only [left] at *; omega

theorem pays_sectionBody {push : Nat} (hp : 64 + push * 4294967295 ≤ K) (kind : SectionKind) (st : LoopState) :
    Pays (R := R) K 16 (decodeSectionBody push kind st) (fun _ => 0) := by
  have hK : 64 ≤ K := Rate.le
  unfold decodeSectionBody
  refine Pays.step (by omega) ?_
  dsimp only
  cases kind with
  | Function =>
    refine Pays.bind (Pays.mapErr pays_functionSection) (by omega) fun _ => ?_
    pay
  | Code =>
    refine Pays.bind (Pays.mapErr (pays_codeSection hp)) (by omega) fun codes => Pays.ite (fun _ => Pays.err) fun _ => ?_
    refine Pays.bind (pays_fill push codes 0 _ _) (by omega) fun ⟨_, _⟩ => Pays.pure (by omega)
  | _ => pay

theorem pays_section {push : Nat} (hp : 64 + push * 4294967295 ≤ K) (h : SectionHeader) (st : LoopState) :
    Pays (R := R) K 18 (decodeSection push h st) (fun _ => 0) := by
  refine Pays.step (by omega) (Free.bind (by omega) fun _ => ?_)
  refine Pays.bind (Pays.take (pays_sectionBody hp _ _)) (by omega) fun ⟨_, _⟩ => ?_
  pay

theorem pays_sectionLoop {push : Nat} (hp : 64 + push * 4294967295 ≤ K) : ∀ n st,
    Pays (R := R) K 15 (sectionLoop push n st) (fun _ => 0)
  | 0, _ => Pays.step (by omega) Pays.fuel
  | n + 1, st => by
    have hK : 64 ≤ K := Rate.le
    refine Pays.step (by omega) (Pays.bind (Pays.mapErr pays_header) (by omega) fun h => ?_)
    cases h with
    | none => exact Pays.pure (by omega)
    | some h =>
      refine Pays.bind (pays_section hp h st) (by simp only [behind]; omega) fun st' => ?_
      exact Pays.weaken (pays_sectionLoop hp n st') (by simp only [behind]; omega) fun _ => Nat.zero_le _

theorem pays_module {push : Nat} (hp : 64 + push * 4294967295 ≤ K) : Pays (R := R) K 20 (decodeModule push) (fun _ => 0) := by
  refine Pays.step (by omega) ?_
  intro r res r' n h
  refine Pays.bind (K := K) (c := 19) (Pays.mapErr pays_preamble) (by omega) (fun _ => ?_) r res r' n h
  refine Pays.bind (pays_sectionLoop hp _ _) (by omega) fun st => ?_
  pay

end Wadec.Counted
