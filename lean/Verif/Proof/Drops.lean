import Verif.Model.Drops
import Verif.Proof.Usage

/-! Dropping what has been decoded needs no more of the call stack than decoding it (C84). -/

namespace Wadec

open LawfulRead Spec

section
variable {R : Type} [Read R] {ε ε' α β : Type} {q : Nat}

theorem drops_all {es : List Expr} (h : ∀ e ∈ es, Shallow q e) : eachWithin (dropVecWithin q) es = some (es.map fun _ => ()) :=
  each_within es fun e he => dropVec_within q e (h e he)

theorem holding_eq {es : List Expr} (h : ∀ e ∈ es, Shallow q e) (x : Dec R ε α) : holding q es x = x := by
  funext r
  simp only [holding, drops_all h]
  generalize x r = o
  obtain ⟨res, r'⟩ := o
  cases res <;> rfl

theorem dropping_eq {es : List Expr} (h : ∀ e ∈ es, Shallow q e) : (dropping q es : Dec R ε Unit) = pure () := by
  funext r
  simp only [dropping, drops_all h]
  rfl

/-- `y` goes on after `x'`, whose results satisfy `P`, as `f` does. -/
theorem after {P : α → Prop} {x x' y : Dec R ε α} {f g : α → Dec R ε β} (e : y = x') (h : Fits P x x')
    (hf : ∀ v, P v → g v = f v) : (y >>= g) = (x' >>= f) := by
  subst e
  funext r
  simp only [Bind.bind, Dec.bind]
  have := fun v r' => (h r v r').1
  generalize y r = o at this
  obtain ⟨res, r'⟩ := o
  cases res with
  | ok v => exact congrFun (hf v (this v r' rfl).2) r'
  | _ => rfl

theorem next {x : Dec R ε α} {f g : α → Dec R ε β} (hf : ∀ v, g v = f v) : (x >>= g) = (x >>= f) :=
  congrArg (x >>= ·) (funext hf)

theorem into {x y : Dec R ε α} {f : α → Dec R ε β} (e : y = x) : (y >>= f) = (x >>= f) := by rw [e]

theorem either {p : Prop} [Decidable p] {a a' b b' : Dec R ε α} (ha : p → a' = a) (hb : ¬ p → b' = b) :
    (if p then a' else b') = (if p then a else b) := by
  split
  · exact ha ‹_›
  · exact hb ‹_›

theorem one {e : Expr} (h : Shallow q e) : ∀ x ∈ [e], Shallow q x := fun x hx => by cases List.mem_singleton.1 hx; exact h

theorem shallow_le {d : Nat} {is : List Instr} (h : depthInstrs is < d ∨ is = []) (hq : d ≤ q) : Shallow q is :=
  h.imp (fun h => Nat.lt_of_lt_of_le h hq) id

theorem depth_snoc {d : Nat} {acc : List Instr} {i : Instr} (ha : depthInstrs acc < d ∨ acc = []) (hi : depthInstr i < d) :
    depthInstrs (acc ++ [i]) < d := by
  rw [depthInstrs_snoc]
  rcases ha with h | rfl
  · omega
  · simpa [depthInstrs] using hi

/-! ### Instructions -/

theorem seq_drops {d : Nat} {p p' : Dec R ParseError ParseResult} (h : Fits (Room d) p p') (hq : d ≤ q) :
    ∀ n b acc, depthInstrs acc < d ∨ acc = [] → parseSeqDropping q p' n b acc = parseSeq p' n b acc
  | 0, _, _, _ => rfl
  | n + 1, b, acc, ha => by
    have hs := one (shallow_le ha hq)
    rw [parseSeqDropping, parseSeq]
    refine after (holding_eq hs p') h fun v hv => ?_
    cases v with
    | Instruction i => exact seq_drops h hq n b _ (.inl (depth_snoc ha hv))
    | End => rfl
    | Else => exact either (fun _ => rfl) fun _ => holding_eq hs _

theorem loop_drops {d : Nat} {p p' : Dec R ParseError ParseResult} (h : Fits (Room d) p p') (hq : d ≤ q) :
    ∀ n acc c, depthInstrs acc < d ∨ acc = [] → decodeExprLoopDropping d q p' n acc c = decodeExprLoopWithin d p' n acc c
  | 0, _, _, _ => rfl
  | n + 1, acc, c, ha => by
    have hs := one (shallow_le ha hq)
    rw [decodeExprLoopDropping, decodeExprLoopWithin]
    refine after (holding_eq hs _) h.mapErr fun v hv => ?_
    cases v with
    | Instruction i =>
      simp only
      cases containsDataIdxWithin d i with
      | none => rfl
      | some b => exact loop_drops h hq n _ _ (.inl (depth_snoc ha hv))
    | End => rfl
    | Else => exact holding_eq hs _

theorem listLoop_drops {P : α → Prop} {es : α → List Expr} {f f' : Dec R ε α} (h : Fits P f f')
    (hp : ∀ v, P v → ∀ e ∈ es v, Shallow q e) : ∀ n i items, (∀ v ∈ items, P v) →
      decodeListLoopDropping q es f' n i items =
        (decodeListLoop (fun (_ : Unit) => do let x ← f'; pure (x, ())) n i () items >>= fun x => pure x.1)
  | 0, _, _, _ => rfl
  | n + 1, i, items, hi => by
    have hs : ∀ e ∈ items.flatMap es, Shallow q e := fun e he => by
      obtain ⟨v, hv, he⟩ := List.mem_flatMap.1 he
      exact hp v (hi v hv) e he
    rw [decodeListLoopDropping, decodeListLoop]
    have ih : ∀ v, P v → decodeListLoopDropping q es f' n (i + 1) (items ++ [v]) = _ := fun v hv =>
      listLoop_drops h hp n (i + 1) (items ++ [v]) fun x hx => by
        rcases List.mem_append.1 hx with hx | hx
        · exact hi x hx
        · cases List.mem_singleton.1 hx; exact hv
    rw [holding_eq hs]
    funext r
    have := fun v r' => (h r v r').1
    simp only [Bind.bind, Dec.bind, Dec.mapErr]
    generalize f' r = o at this
    obtain ⟨res, r'⟩ := o
    cases res with
    | ok v => exact congrFun (ih v (this v r' rfl).2) r'
    | _ => rfl

theorem list_drops {P : α → Prop} {es : α → List Expr} {f f' y : Dec R ε α} (e : y = f') (h : Fits P f f')
    (hp : ∀ v, P v → ∀ e ∈ es v, Shallow q e) : decodeListDropping q es y = decodeList f' := by
  subst e
  funext r
  simp only [decodeListDropping, decodeList, decodeListS, Bind.bind, Dec.bind]
  generalize decodeU32.mapErr DecodeListError.DecodeLength r = o
  obtain ⟨res, r1⟩ := o
  cases res with
  | ok len =>
    simp only
    generalize Dec.reserve (ε := DecodeListError ε) len.toNat r1 = o
    obtain ⟨res, r2⟩ := o
    cases res with
    | ok u =>
      simp only
      rw [listLoop_drops h hp _ _ _ (by simp)]
      simp only [Bind.bind, Dec.bind]
    | _ => rfl
  | _ => rfl

end

theorem parse_drops {R : Type} [LawfulRead R] : ∀ n d q, d ≤ q → parseDropping (R := R) d q n = parseWithin d n
  | _, 0, _, _ => by rw [parseDropping, parseWithin]
  | 0, d + 1, _, _ => by rw [parseDropping, parseWithin]
  | n + 1, d + 1, q, hq => by
    have hq' : d ≤ q - 1 := by omega
    have ih := parse_drops (R := R) n d (q - 1) hq'
    have hf := parse_fits (R := R) n d
    rw [parseDropping, parseWithin]
    refine next fun v => ?_
    match v with
    | [] => rfl
    | _ :: _ :: _ => rfl
    | [op] =>
      refine either (fun _ => rfl) fun _ => either (fun _ => rfl) fun _ => either (fun _ => ?_) fun _ => either (fun _ => ?_) fun _ => rfl
      · refine next fun bt => after (by rw [ih]; exact seq_drops hf hq' _ _ _ (.inr rfl)) (Fits.seq hf _ _ _ (.inr rfl)) ?_
        rintro ⟨in1, parsed⟩ hv
        refine either (fun _ => rfl) fun _ => either (fun _ => rfl) fun _ => either (fun _ => ?_) fun _ => rfl
        cases parsed with
        | Else =>
          refine into ?_
          rw [holding_eq (one (shallow_le (.inl hv) hq')), ih]
          exact seq_drops hf hq' _ _ _ (.inr rfl)
        | _ => rfl
      · exact next fun bt => next fun c => into (by rw [ih]; exact seq_drops hf hq' _ _ _ (.inr rfl))

section
variable {R : Type} [LawfulRead R] {d q : Nat}

theorem expr_drops (hq : d ≤ q) : decodeExprDropping (R := R) d q = decodeExprWithin d := by
  funext r
  simp only [decodeExprDropping, decodeExprWithin, parse_drops _ _ _ hq]
  exact congrFun (loop_drops (parse_fits _ d) hq _ _ _ (.inr rfl)) r

theorem expr'_drops (hq : d ≤ q) : decodeExprDropping' (R := R) d q = decodeExprWithin' d := into (expr_drops hq)

/-! ### Sections -/

theorem below {e : Expr} (hq : d ≤ q) (h : depthInstrs e < d) : Shallow q e := .inl (Nat.lt_of_lt_of_le h hq)

theorem elem_below (hq : d ≤ q) {e : Elem} (h : ElemFits d e) : ∀ x ∈ e.exprs, Shallow q x := by
  intro x hx
  rcases List.mem_append.1 hx with hx | hx
  · exact below hq (h.1 x hx)
  · cases hm : e.mode with
    | Active y o =>
      rw [hm] at hx
      cases List.mem_singleton.1 hx
      exact below hq (h.2 _ _ hm)
    | _ => rw [hm] at hx; cases hx

theorem data_below (hq : d ≤ q) {e : Data} (h : DataFits d e) : ∀ x ∈ e.exprs, Shallow q x := by
  intro x hx
  unfold Data.exprs at hx
  cases hm : e.mode with
  | Active y o =>
    rw [hm] at hx
    cases List.mem_singleton.1 hx
    exact below hq (h _ _ hm)
  | _ => rw [hm] at hx; cases hx

theorem codeBody_drops (hq : d ≤ q) : parseCodeBodyDropping (R := R) d q = parseCodeBodyWithin d :=
  next fun _ => into (congrArg _ (expr_drops hq))

theorem code_drops (hq : d ≤ q) : parseCodeDropping (R := R) d q = parseCodeWithin d := by
  refine next fun _ => after (congrArg _ (codeBody_drops hq)) (Fits.withTake codeBody_fits) ?_
  rintro ⟨⟨_, e, _⟩, _⟩ h
  exact either (fun _ => holding_eq (one (below hq h)) _) fun _ => rfl

theorem data_drops (hq : d ≤ q) : parseDataDropping (R := R) d q = parseDataWithin d := by
  refine next fun _ => either (fun _ => ?_) fun _ => either (fun _ => rfl) fun _ => either (fun _ => ?_) fun _ => rfl
  · exact after (congrArg _ (expr'_drops hq)) (Fits.mapErr expr'_fits) fun e he => into (holding_eq (one (below hq he)) _)
  · exact next fun _ => after (congrArg _ (expr'_drops hq)) (Fits.mapErr expr'_fits) fun e he => into (holding_eq (one (below hq he)) _)

theorem elemExprs_drops (hq : d ≤ q) : elemExprsDropping (R := R) d q = elemExprsWithin d :=
  congrArg _ (list_drops (expr'_drops hq) expr'_fits fun _ h => one (below hq h))

theorem elem_drops (hq : d ≤ q) : parseElemDropping (R := R) d q = parseElemWithin d := by
  have he : ∀ {f : ParseExpressionError → DecodeElementError} {g g' : Expr → Dec R DecodeElementError Elem},
      (∀ e, depthInstrs e < d → g' e = g e) → ((decodeExprDropping' d q).mapErr f >>= g') = ((decodeExprWithin' d).mapErr f >>= g) :=
    fun h => after (congrArg _ (expr'_drops hq)) (Fits.mapErr expr'_fits) h
  refine next fun _ => either (fun _ => ?_) fun _ => either (fun _ => rfl) fun _ => either (fun _ => ?_) fun _ => either (fun _ => rfl) fun _ =>
    either (fun _ => ?_) fun _ => either (fun _ => ?_) fun _ => either (fun _ => ?_) fun _ => either (fun _ => ?_) fun _ => rfl
  · exact he fun e h => into (holding_eq (one (below hq h)) _)
  · refine next fun _ => he fun e h => ?_
    rw [holding_eq (one (below hq h)), holding_eq (one (below hq h))]
  · refine he fun e h => ?_
    rw [holding_eq (one (below hq h)), elemExprs_drops hq]
  · rw [elemExprs_drops hq]
  · refine next fun _ => he fun e h => ?_
    rw [holding_eq (one (below hq h)), holding_eq (one (below hq h)), elemExprs_drops hq]
  · rw [elemExprs_drops hq]

theorem global_drops (hq : d ≤ q) : parseGlobalDropping (R := R) d q = parseGlobalWithin d :=
  next fun _ => into (congrArg _ (expr'_drops hq))

theorem table_drops (hq : d ≤ q) : decodeTableDropping (R := R) d q = decodeTableWithin d :=
  next fun _ => either (fun _ => next fun _ => either (fun _ => rfl) fun _ => next fun _ => into (congrArg _ (expr'_drops hq)))
    fun _ => rfl

theorem fill_drops : ∀ (codes : List Code) (i : Nat) (fs : List Func) (b : Bool), (∀ c ∈ codes, Shallow q c.expr) →
    (∀ f ∈ fs, Shallow q f.body) → fillFuncsDropping (R := R) q codes i fs b = fillFuncs codes i fs b
  | [], _, _, _, _, _ => rfl
  | c :: codes, i, fs, b, hc, hf => by
    rw [fillFuncsDropping, fillFuncs]
    cases h : fs[i]? with
    | none =>
      refine holding_eq (fun e he => ?_) _
      rcases List.mem_append.1 he with he | he
      · obtain ⟨f, hf', rfl⟩ := List.mem_map.1 he; exact hf f hf'
      · obtain ⟨f, hf', rfl⟩ := List.mem_map.1 he; exact hc f hf'
    | some f =>
      simp only
      rw [dropping_eq (one (hf f (List.mem_of_getElem? h)))]
      refine fill_drops codes (i + 1) _ _ (fun c h => hc c (List.mem_cons_of_mem _ h)) fun g hg => ?_
      rcases List.mem_or_eq_of_mem_set hg with hg | rfl
      · exact hf g hg
      · exact hc c List.mem_cons_self

theorem module_below (hq : d ≤ q) {m : Module} (h : depthModule m < d) : ∀ e ∈ m.exprs, Shallow q e :=
  fun _ he => .inl (Nat.lt_of_le_of_lt (exprs_depth he) (Nat.lt_of_lt_of_le h hq))

theorem sectionBody_drops (hq : d ≤ q) {k : SectionKind} {st : LoopState} (h : depthModule st.module < d) :
    decodeSectionBodyDropping (R := R) d q k st = decodeSectionBodyWithin d k st := by
  have hd : 0 < d := Nat.lt_of_le_of_lt (Nat.zero_le _) h
  have hm := (depthModule_lt hd).1 h
  cases k with
  | Table =>
    refine after (congrArg _ (congrArg _ (list_drops (table_drops hq) (table_fits hd) fun _ h => one (below hq h))))
      (Fits.mapErr (Fits.mapErr (Fits.list (table_fits hd)))) fun ts _ => ?_
    rw [dropping_eq fun e he => ?_]
    · rfl
    · obtain ⟨t, ht, rfl⟩ := List.mem_map.1 he
      exact below hq (hm.2.2.1 t ht)
  | Global =>
    refine after (congrArg _ (congrArg _ (list_drops (global_drops hq) global_fits fun _ h => one (below hq h))))
      (Fits.mapErr (Fits.mapErr (Fits.list global_fits))) fun ts _ => ?_
    rw [dropping_eq fun e he => ?_]
    · rfl
    · obtain ⟨t, ht, rfl⟩ := List.mem_map.1 he
      exact below hq (hm.2.1 t ht)
  | Element =>
    refine after (congrArg _ (congrArg _ (list_drops (elem_drops hq) (elem_fits hd) fun _ h => elem_below hq h)))
      (Fits.mapErr (Fits.mapErr (Fits.list (elem_fits hd)))) fun ts _ => ?_
    rw [dropping_eq fun e he => ?_]
    · rfl
    · obtain ⟨t, ht, he⟩ := List.mem_flatMap.1 he
      exact elem_below hq (hm.2.2.2.1 t ht) e he
  | Code =>
    refine after (congrArg _ (congrArg _ (list_drops (code_drops hq) code_fits fun _ h => one (below hq h))))
      (Fits.mapErr (Fits.mapErr (Fits.list code_fits))) fun cs hc => either (fun _ => ?_) fun _ => ?_
    · refine holding_eq (fun e he => ?_) _
      obtain ⟨c, h, rfl⟩ := List.mem_map.1 he
      exact below hq (hc c h)
    · exact into (fill_drops _ _ _ _ (fun c h => below hq (hc c h)) fun f h => below hq (hm.1 f h))
  | Data =>
    refine after (congrArg _ (congrArg _ (list_drops (data_drops hq) data_fits fun _ h => data_below hq h)))
      (Fits.mapErr (Fits.mapErr (Fits.list data_fits))) fun ds hds => ?_
    have hall : ∀ l : List Data, (∀ x ∈ l, DataFits d x) → ∀ e ∈ l.flatMap Data.exprs, Shallow q e := fun l hl e he => by
      obtain ⟨t, ht, he⟩ := List.mem_flatMap.1 he
      exact data_below hq (hl t ht) e he
    rw [dropping_eq (hall _ hm.2.2.2.2)]
    cases st.module.data_count with
    | none => rfl
    | some c => exact either (fun _ => holding_eq (hall _ hds) _) fun _ => rfl
  | _ => rfl

theorem section_drops (hq : d ≤ q) {h : SectionHeader} {st : LoopState} (hst : depthModule st.module < d) :
    decodeSectionDropping (R := R) d q h st = decodeSectionWithin d h st := by
  unfold decodeSectionDropping decodeSectionWithin
  rw [holding_eq (module_below hq hst), sectionBody_drops hq hst, holding_eq (module_below hq hst)]
  refine next fun _ => after rfl (Fits.withTake (sectionBody_fits hst)) ?_
  rintro ⟨st', l⟩ hs
  exact either (fun _ => holding_eq (module_below hq hs) _) fun _ => rfl

theorem sectionLoop_drops (hq : d ≤ q) : ∀ (n : Nat) (st : LoopState), depthModule st.module < d →
    sectionLoopDropping (R := R) d q n st = sectionLoopWithin d n st
  | 0, _, _ => rfl
  | n + 1, st, hst => by
    rw [sectionLoopDropping, sectionLoopWithin, holding_eq (module_below hq hst)]
    refine next fun h => ?_
    cases h with
    | none => rfl
    | some h => exact after (section_drops hq hst) (section_fits hst) fun st' hst' => sectionLoop_drops hq n st' hst'

theorem sectionLoop_depth : ∀ (n : Nat) (st : LoopState), depthModule st.module < d → ∀ (r : R) v r',
    sectionLoopWithin d n st r = (.ok v, r') → depthModule v.module < d
  | 0, _, _, _, _, _, h => by cases h
  | n + 1, st, hst, r, v, r', h => by
    rw [sectionLoopWithin] at h
    obtain ⟨hd, r1, _, h⟩ := bind_ok_iff.1 h
    cases hd with
    | none => obtain ⟨rfl, _⟩ := pure_ok_iff.1 h; exact hst
    | some hd =>
      obtain ⟨st', r2, h1, h⟩ := bind_ok_iff.1 h
      exact sectionLoop_depth n st' ((section_fits hst _ _ _).1 h1).2 _ _ _ h

theorem module_drops (hd : 0 < d) (hq : d ≤ q) : decodeModuleDropping (R := R) d q = decodeModuleWithin d := by
  funext r
  simp only [decodeModuleDropping, decodeModuleWithin]
  refine congrFun (next fun _ => ?_) r
  rw [sectionLoop_drops hq _ _ (show depthModule Module.default < d from hd)]
  funext r1
  simp only [Bind.bind, Dec.bind]
  have := sectionLoop_depth (d := d) (Read.weight r + 1) ⟨Module.default, false, false⟩ hd r1
  generalize sectionLoopWithin d (Read.weight r + 1) ⟨Module.default, false, false⟩ r1 = o at this
  obtain ⟨res, r2⟩ := o
  cases res with
  | ok st => exact congrFun (holding_eq (module_below hq (this st r2 rfl)) _) r2
  | _ => rfl

end

end Wadec
