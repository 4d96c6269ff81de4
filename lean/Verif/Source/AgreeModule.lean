import Verif.Source.Module
import Verif.Source.AgreeSections

/-! The translated functions of src/decode/module.rs (Source/Module.lean) are the functions of the model. -/

set_option linter.unusedSectionVars false

namespace Wadec.Source

variable {R : Type} [Read R] [Fits R] {ε ε' α β : Type}

theorem preamble_const : EXPECTED_PREAMBLE = Wadec.EXPECTED_PREAMBLE := rfl
theorem module_default_eq : Source.Module.default = Wadec.Module.default := rfl

theorem parse_preamble_eq : (parse_preamble : Dec R _ _) = parsePreamble := by
  unfold parse_preamble parsePreamble
  rfl

theorem validate_eq (m : Module) (h : SectionHeader) :
    (Source.Module.validate_section_kind_expected m h : Dec R _ _) = m.validateSectionKindExpected h.kind := by
  unfold Source.Module.validate_section_kind_expected Wadec.Module.validateSectionKindExpected
  dsimp only
  cases m.parsed_section_kinds.getLast? with
  | none => rfl
  | some p =>
    dsimp only
    by_cases hc : h.kind = .Custom
    · rw [if_pos (Or.inr hc), if_pos hc]
    · rw [if_neg hc, if_neg (by rintro (h' | h'); cases h'; exact hc h')]
      rfl

theorem decode_section_header_eq : (decode_section_header : Dec R _ _) = decodeSectionHeader := by
  unfold decode_section_header decodeSectionHeader
  funext r
  simp only [bind_eq, Dec.bind, attempt, read_byte_eq]
  rcases readByte r with ⟨res, r'⟩
  cases res with
  | ok id =>
    simp only [from_marker_eq, decode_u32_eq, sectionHeaderRest]
    rw [show (FromMarkerByte.markers (α := SectionKind) : List _) = SectionKind.markers from rfl]
    rw [← bind_eq, dec_pure_bind]
    cases fromMarker SectionKind.markers id <;> rfl
  | err e =>
    simp only
    split <;> rfl
  | _ => rfl

theorem funcs_loop {F : TypeIdx → Module → Dec R ε (ForInStep Module)}
    (hF : ∀ t m, F t m = pure (.yield { m with funcs := m.funcs ++ [⟨t, [], []⟩] })) :
    ∀ (ts : List TypeIdx) (m : Module), forIn ts m F =
      (pure { m with funcs := m.funcs ++ ts.map fun t => ⟨t, [], []⟩ } : Dec R ε Module)
  | [], m => by simp
  | t :: ts, m => by
    rw [List.forIn_cons, hF, dec_pure_bind]
    show forIn ts _ F = _
    rw [funcs_loop hF ts]
    simp

/-! ### The loops over the code entries -/

/-- `module.funcs[i]` replaced by `f` (src/decode/module.rs:275, 283) -/
def putFunc (m : Module) (i : Nat) (f : Func) : Module := { m with funcs := m.funcs.set i f }

theorem putFunc_get {m : Module} {i : Nat} {f g : Func} (h : m.funcs[i]? = some g) :
    (putFunc m i f).funcs[i]? = some f := by
  obtain ⟨hlt, _⟩ := List.getElem?_eq_some_iff.1 h
  exact List.getElem?_set_self hlt

theorem putFunc_put {m : Module} {i : Nat} {f g : Func} : putFunc (putFunc m i f) i g = putFunc m i g := by
  simp only [putFunc, List.set_set]

theorem putFunc_self {m : Module} {i : Nat} {f : Func} (h : m.funcs[i]? = some f) : putFunc m i f = m := by
  obtain ⟨hlt, he⟩ := List.getElem?_eq_some_iff.1 h
  simp only [putFunc, ← he, List.set_getElem_self]

theorem set_some {m : Module} {i : Nat} {f g : Func} (h : m.funcs[i]? = some f) :
    (set_index m.funcs i g : Dec R ε _) = pure (m.funcs.set i g) := by
  obtain ⟨hlt, _⟩ := List.getElem?_eq_some_iff.1 h
  rw [set_index, if_pos hlt]

theorem index_some {m : Module} {i : Nat} {f : Func} (h : m.funcs[i]? = some f) :
    (index m.funcs i : Dec R ε _) = pure f := by
  rw [index, h]; rfl

theorem index_none {m : Module} {i : Nat} (h : m.funcs[i]? = none) :
    (index m.funcs i : Dec R ε _) = Dec.panic := by
  rw [index, h]; rfl

theorem run_loop {ι : Type} {i : Nat} {t : ValType} {G : ι → Module → Dec R ε (ForInStep Module)}
    (hG : ∀ x m f, m.funcs[i]? = some f →
      G x m = pure (.yield (putFunc m i { f with locals := f.locals ++ [t] }))) :
    ∀ (xs : List ι) (m : Module) (f : Func), m.funcs[i]? = some f →
      forIn xs m G = (pure (putFunc m i { f with locals := f.locals ++ List.replicate xs.length t }) : Dec R ε Module)
  | [], m, f, h => by
    simp only [List.forIn_nil, List.length_nil, List.replicate_zero, List.append_nil]
    rw [putFunc_self h]
  | x :: xs, m, f, h => by
    rw [List.forIn_cons, hG x m f h, dec_pure_bind]
    show forIn xs _ G = _
    rw [run_loop hG xs _ _ (putFunc_get h), putFunc_put]
    simp only [List.append_assoc, List.length_cons, List.replicate_succ, List.singleton_append]

theorem locals_loop {i : Nat} {F : Local → Module → Dec R ε (ForInStep Module)}
    (hF : ∀ l m f, m.funcs[i]? = some f →
      F l m = pure (.yield (putFunc m i { f with locals := f.locals ++ List.replicate l.count.toNat l.t }))) :
    ∀ (ls : List Local) (m : Module) (f : Func), m.funcs[i]? = some f →
      forIn ls m F = (pure (putFunc m i { f with locals := f.locals ++ expandLocals ls }) : Dec R ε Module)
  | [], m, f, h => by
    simp only [List.forIn_nil, expandLocals, List.flatMap_nil, List.append_nil]
    rw [putFunc_self h]
  | l :: ls, m, f, h => by
    rw [List.forIn_cons, hF l m f h, dec_pure_bind]
    show forIn ls _ F = _
    rw [locals_loop hF ls _ _ (putFunc_get h), putFunc_put]
    simp only [List.append_assoc, expandLocals, List.flatMap_cons]

theorem stuck_loop {ι : Type} {m : Module} {F : ι → Module → Dec R ε (ForInStep Module)} {K : Module → Dec R ε α}
    (hF : ∀ x, F x m = Dec.panic ∨ F x m = pure (.yield m)) (hK : K m = Dec.panic) :
    ∀ xs : List ι, (forIn xs m F >>= K) = Dec.panic
  | [] => by rw [List.forIn_nil, dec_pure_bind, hK]
  | x :: xs => by
    rw [List.forIn_cons]
    rcases hF x with h | h
    · rw [h]; rfl
    · rw [h, dec_pure_bind]
      exact stuck_loop hF hK xs

theorem codes_loop {F : Nat × Code → Module × Bool → Dec R DecodeModuleError (ForInStep (Module × Bool))}
    (hF : ∀ i code m d, F (i, code) (m, d) = match m.funcs[i]? with
      | none => Dec.panic
      | some f => pure (.yield (putFunc m i { f with locals := f.locals ++ expandLocals code.locals, body := code.expr },
        if code.encountered_data_index = true then true else d))) :
    ∀ (codes : List Code) (i : Nat) (m : Module) (d : Bool),
      forIn ((codes.zipIdx i).map fun p => (p.2, p.1)) (m, d) F =
        (fillFuncs codes i m.funcs d >>= fun x => pure ({ m with funcs := x.1 }, x.2))
  | [], i, m, d => rfl
  | code :: codes, i, m, d => by
    rw [List.zipIdx_cons, List.map_cons, List.forIn_cons, hF, fillFuncs]
    cases h : m.funcs[i]? with
    | none => rfl
    | some f =>
      dsimp only
      rw [dec_pure_bind]
      show forIn _ _ F = _
      rw [codes_loop hF codes (i + 1)]
      rfl

/-- src/decode/module.rs:304-318: the rest of an iteration of the section loop, after the contents -/
def tail (h : SectionHeader) (st : LoopState) : Dec (Take R) DecodeModuleError (Module × Bool × Bool) := do
  let l ← limit
  if l ≠ 0 then do
    let l ← limit
    let got ← sub (From.from_ h.size : UInt64) l
    Dec.err (DecodeModuleError.SectionSizeMismatch h.kind h.size got)
  else
    pure ({ st.module with
      section_headers := st.module.section_headers ++ [h]
      parsed_section_kinds := if h.kind ≠ .Custom then st.module.parsed_section_kinds ++ [h.kind]
        else st.module.parsed_section_kinds },
      st.encountered_code_section, st.encountered_data_idx_in_code_section)

theorem onTake_validate {n : UInt64} {m : Module} {k : SectionKind} {d : Dec (Take R) DecodeModuleError α} :
    onTake n (m.validateSectionKindExpected k >>= fun _ => d) =
      (m.validateSectionKindExpected k >>= fun _ => onTake n d : Dec R DecodeModuleError α) := by
  unfold Wadec.Module.validateSectionKindExpected
  cases m.parsed_section_kinds.getLast? with
  | none => rfl
  | some p =>
    dsimp only
    split
    · rfl
    · split
      · rfl
      · split <;> rfl

theorem readToEndLoop_limit {n : Nat} : ∀ f acc (t : Take R), t.limit ≤ n → (readToEndLoop f acc t).2.limit ≤ n
  | 0, _, _, h => h
  | f + 1, acc, t, h => by
    have hr := take_read_limit (Read.room t + 1) t
    simp only [readToEndLoop]
    generalize Read.read (Read.room t + 1) t = o at hr
    obtain ⟨res, t'⟩ := o
    have h' := Nat.le_trans hr h
    cases res with
    | ok bs =>
      cases bs with
      | nil => exact h'
      | cons b bs => exact readToEndLoop_limit f _ t' h'
    | error e =>
      cases e with
      | interrupted => exact readToEndLoop_limit f _ t' h'
      | _ => exact h'

theorem body_limit {n : Nat} (k : SectionKind) (st : LoopState) (r : R) {a : LoopState} {t : Take R}
    (h : decodeSectionBody k st ⟨n, r⟩ = (.ok a, t)) : t.limit ≤ n := by
  by_cases hk : k = .Custom
  · subst hk
    have h1 := (Calm.mapErr (f := DecodeCustomSectionError.DecodeName)
      (name_calm (limit_watched (R := R) n)) ⟨n, r⟩ (Nat.le_refl _)).1
    simp only [decodeSectionBody, decodeSectionCustom, Bind.bind, Dec.bind, Dec.mapErr] at h h1
    generalize decodeName (⟨n, r⟩ : Take R) = o at h h1
    obtain ⟨res, t1⟩ := o
    cases res with
    | ok v =>
      have h2 := readToEndLoop_limit (Read.weight t1 + 1) [] t1 h1
      simp only [readToEnd] at h
      generalize readToEndLoop (Read.weight t1 + 1) [] t1 = o at h h2
      obtain ⟨res2, t2⟩ := o
      cases res2 with
      | ok v => cases h; exact h2
      | _ => cases h
    | _ => cases h
  · have := (sectionBody_calm (limit_watched (R := R) n) (st := st) hk ⟨n, r⟩ (Nat.le_refl _)).1
    rw [h] at this
    exact this

theorem section_tail (h : SectionHeader) (st : LoopState) :
    onTake (From.from_ h.size) (decodeSectionBody h.kind st >>= tail h) =
      (Dec.withTake h.size.toNat (decodeSectionBody h.kind st) >>= fun x =>
        if x.2 ≠ 0 then
          Dec.err (.SectionSizeMismatch h.kind h.size (UInt64.ofNat (h.size.toNat - x.2)))
        else
          pure ({ x.1.module with
            section_headers := x.1.module.section_headers ++ [h]
            parsed_section_kinds := if h.kind ≠ .Custom then x.1.module.parsed_section_kinds ++ [h.kind]
              else x.1.module.parsed_section_kinds },
            x.1.encountered_code_section, x.1.encountered_data_idx_in_code_section) : Dec R _ _) := by
  have hn : (From.from_ h.size : UInt64).toNat = h.size.toNat := by simp [From.from_]
  have hs : h.size.toNat < 2 ^ 64 := Nat.lt_of_lt_of_le h.size.toNat_lt (by decide)
  refine onTake_eq (k' := fun (a : LoopState) l => (if l ≠ 0 then
          Dec.err (.SectionSizeMismatch h.kind h.size (UInt64.ofNat (h.size.toNat - l)))
        else
          pure ({ a.module with
            section_headers := a.module.section_headers ++ [h]
            parsed_section_kinds := if h.kind ≠ .Custom then a.module.parsed_section_kinds ++ [h.kind]
              else a.module.parsed_section_kinds },
            a.encountered_code_section, a.encountered_data_idx_in_code_section) :
          Dec R DecodeModuleError (Module × Bool × Bool))) hn (fun r a t ht => body_limit _ _ _ ht) fun a l r hl => ?_
  have h1 := limit_ne (Nat.lt_of_le_of_lt hl hs)
  have h2 := sub_limit (R := Take R) (ε := DecodeModuleError) hn hs hl
  by_cases h0 : l = 0
  · subst h0
    exact ⟨rfl, rfl⟩
  · simp only [tail, limit, bind_eq, Dec.bind]
    rw [if_pos (h1.2 h0), if_pos h0]
    simp only [limit, Dec.bind, h2]
    exact ⟨rfl, rfl⟩

theorem section_eq (h : SectionHeader) (m : Module) (c d : Bool) :
    (m.validateSectionKindExpected h.kind >>= fun _ =>
      onTake (From.from_ h.size) (decodeSectionBody h.kind ⟨m, c, d⟩ >>= tail h) : Dec R _ _) =
      (decodeSection h ⟨m, c, d⟩ >>= fun st =>
        pure (st.module, st.encountered_code_section, st.encountered_data_idx_in_code_section)) := by
  unfold decodeSection
  rw [section_tail, dec_bind_assoc]
  refine bind_congr' fun _ => ?_
  rw [dec_bind_assoc]
  refine bind_congr' fun x => ?_
  dsimp only
  split <;> rfl

theorem sections_loop {F : Unit → Module × Bool × Bool → Dec R DecodeModuleError (ForInStep (Module × Bool × Bool))}
    (hF : ∀ m c d, F () (m, c, d) =
      Dec.mapErr DecodeModuleError.DecodeSectionHeader decodeSectionHeader >>= fun x => match x with
        | none => pure (.done (m, c, d))
        | some h => decodeSection h ⟨m, c, d⟩ >>= fun st =>
          pure (.yield (st.module, st.encountered_code_section, st.encountered_data_idx_in_code_section))) :
    ∀ (n : Nat) (m : Module) (c d : Bool), forIn (Fuel.mk n) (m, c, d) F =
      (sectionLoop n ⟨m, c, d⟩ >>= fun st =>
        pure (st.module, st.encountered_code_section, st.encountered_data_idx_in_code_section))
  | 0, _, _, _ => rfl
  | n + 1, m, c, d => by
    show Fuel.forIn F (n + 1) (m, c, d) = _
    rw [Fuel.forIn, hF, sectionLoop, dec_bind_assoc, dec_bind_assoc]
    refine bind_congr' fun x => ?_
    cases x with
    | none => rfl
    | some h =>
      dsimp only
      rw [dec_bind_assoc, dec_bind_assoc]
      exact bind_congr' fun st => sections_loop hF n st.module _ _

theorem arm {E : Type} [From E DecodeModuleError] {s s' : Dec (Take R) E α} {h : SectionHeader}
    {k : α → Dec (Take R) DecodeModuleError (Module × Bool × Bool)} {k' : α → Dec (Take R) DecodeModuleError LoopState}
    (hs : s = s') (hk : ∀ a, k a = (k' a >>= tail h)) :
    (q s >>= k) = ((Dec.mapErr From.from_ s' >>= k') >>= tail h) := by
  rw [hs, dec_bind_assoc]
  exact bind_congr' hk

theorem decode_module_eq : (decode_module : Dec R _ _) = decodeModule := by
  unfold decode_module
  funext r
  refine budget_congr (d := do
    parsePreamble.mapErr DecodeModuleError.ParsePreamble
    let st ← sectionLoop (Read.weight r + 1) ⟨Wadec.Module.default, false, false⟩
    finalChecks st) ?_
  rw [parse_preamble_eq]
  refine bind_congr' fun _ => ?_
  dsimp only
  rw [sections_loop]
  · rw [dec_bind_assoc]
    refine bind_congr' fun st => ?_
    rw [dec_pure_bind]
    obtain ⟨m, c, d⟩ := st
    unfold finalChecks
    dsimp only
    refine ite_congr' ?_ (fun _ => rfl) fun _ => ?_
    · rw [List.isEmpty_iff]
    · cases hdc : m.data_count with
      | none => rfl
      | some n =>
        refine ite_congr' ?_ (fun _ => rfl) fun _ => rfl
        simp [Option.any]
  · intro m c d
    rw [decode_section_header_eq]
    refine bind_congr' fun x => ?_
    cases x with
    | none => rfl
    | some h =>
      dsimp only
      refine Eq.trans (b := onTake (From.from_ h.size) (m.validateSectionKindExpected h.kind >>= fun _ =>
        decodeSectionBody h.kind ⟨m, c, d⟩ >>= tail h) >>= fun x => pure (.yield x)) ?_ ?_
      · refine congrArg (· >>= _) (congrArg (onTake _) ?_)
        rw [validate_eq, q_self]
        refine bind_congr' fun _ => ?_
        obtain ⟨kind, size⟩ := h
        cases kind with
        | Custom => exact arm decode_section_custom_eq fun _ => rfl
        | «Type» => exact arm decode_type_section_eq fun _ => rfl
        | Import => exact arm decode_import_section_eq fun _ => rfl
        | Table => exact arm decode_table_section_eq fun _ => rfl
        | Memory => exact arm decode_memory_section_eq fun _ => rfl
        | Tag => exact arm decode_tag_section_eq fun _ => rfl
        | Global => exact arm decode_global_section_eq fun _ => rfl
        | Export => exact arm decode_export_section_eq fun _ => rfl
        | Start => exact arm decode_start_section_eq fun _ => rfl
        | Element => exact arm decode_element_section_eq fun _ => rfl
        | DataCount => exact arm decode_datacount_section_eq fun _ => rfl
        | Function =>
          refine arm decode_function_section_eq fun ts => ?_
          dsimp only
          rw [funcs_loop fun _ _ => rfl, dec_pure_bind]
          rfl
        | Code =>
          refine arm decode_code_section_eq fun codes => ?_
          rw [ite_bind]
          refine ite_congr' Iff.rfl (fun _ => rfl) fun _ => ?_
          rw [dec_bind_assoc]
          dsimp only
          rw [enumerate, codes_loop]
          · rw [dec_bind_assoc]; rfl
          · intro i code m d
            dsimp only
            cases hi : m.funcs[i]? with
            | none =>
              dsimp only
              refine stuck_loop (fun l => ?_) ?_ _
              · cases hr : range 0 l.count with
                | nil => exact Or.inr rfl
                | cons x xs =>
                  left
                  rw [List.forIn_cons, index_none hi]
                  rfl
              · rw [index_none hi]
                split <;> rfl
            | some f =>
              dsimp only
              rw [locals_loop (i := i) ?_ _ _ _ hi, dec_pure_bind]
              · split
                all_goals
                  rw [index_some (putFunc_get hi), dec_pure_bind, set_some (putFunc_get hi), dec_pure_bind]
                  simp only [putFunc, List.set_set]
              · intro l m f hm
                rw [run_loop (i := i) (t := l.t) ?_ _ _ _ hm, dec_pure_bind, range_zero, List.length_map,
                  List.length_range']
                intro x m f hm
                rw [index_some hm, dec_pure_bind, dec_pure_bind, set_some hm, dec_pure_bind]
                rfl
        | Data =>
          refine arm decode_data_section_eq fun datas => ?_
          cases hdc : m.data_count with
          | none => rfl
          | some n =>
            dsimp only
            rw [usize_try, dec_pure_bind, ite_bind]
            exact ite_congr' Iff.rfl (fun _ => rfl) fun _ => rfl
      · rw [onTake_validate, section_eq, dec_bind_assoc]
        rfl

end Wadec.Source
