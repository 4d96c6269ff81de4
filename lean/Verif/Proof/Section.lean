import Verif.Proof.Assemble

/-! One iteration of the section loop. -/

namespace Wadec

open Wadec.Spec LawfulRead

variable {R S : Type} [LawfulRead R] [LawfulRead S] {L : Nat}

/-! ### Pairing code entries with declared functions -/

theorem fillFuncs_eq : ∀ (codes : List Code) (pre fs : List Func) (enc : Bool),
    codes.length = fs.length →
    (fillFuncs codes pre.length (pre ++ fs) enc : Dec R DecodeModuleError _) =
      pure (pre ++ List.zipWith fill fs (codes.map Code.toEntry),
        enc || codes.any (fun c => c.encountered_data_index)) := by
  intro codes
  induction codes with
  | nil =>
    intro pre fs enc h
    cases fs with
    | nil => simp [fillFuncs]
    | cons => simp at h
  | cons c codes ih =>
    intro pre fs enc h
    cases fs with
    | nil => simp at h
    | cons f fs =>
      simp only [fillFuncs]
      have h1 : (pre ++ f :: fs)[pre.length]? = some f := by simp
      rw [h1]
      simp only
      have h2 : (pre ++ f :: fs).set pre.length
          { f with locals := f.locals ++ expandLocals c.locals, body := c.expr } =
          (pre ++ [fill f c.toEntry]) ++ fs := by
        simp [fill, Code.toEntry]
      have h3 : pre.length + 1 = (pre ++ [fill f c.toEntry]).length := by simp
      rw [h2, h3, ih (pre ++ [fill f c.toEntry]) fs _ (by simpa using h)]
      rw [List.any_cons]
      cases hc : c.encountered_data_index <;> simp

theorem seq_enc {bs : Bytes} {cs : List Code} (h : BSeq BCodeD bs cs) :
    cs.any (fun c => c.encountered_data_index) =
      (cs.map Code.toEntry).any (fun c => anyContainsDataIdx c.body) := by
  induction h with
  | nil => rfl
  | @cons b bs c cs h _ ih =>
    cases h with
    | mk => simp only [List.any_cons, List.map_cons, ih, Code.toEntry]

theorem list_enc {bs : Bytes} {cs : List Code} (h : BList BCodeD bs cs) :
    cs.any (fun c => c.encountered_data_index) =
      (cs.map Code.toEntry).any (fun c => anyContainsDataIdx c.body) := by
  cases h with
  | mk _ h => exact seq_enc h

/-! ### Contents -/

/-- What a successful run of a section's decoder has read and done. -/
def BodyT (kind : SectionKind) (st : LoopState) (bs : Bytes) (st' : LoopState) : Prop :=
  ∃ s : Section, s.kind = kind ∧ BContents bs s ∧ secOk st s ∧ st' = applySection st s

theorem body_sound {kind : SectionKind} (hk : kind ≠ .Custom) (st : LoopState) :
    Sound (R := R) (decodeSectionBody kind st) (BodyT kind st) := by
  cases kind with
  | Custom => exact absurd rfl hk
  | «Type» =>
    refine Sound.bind (Sound.mapErr (Sound.mapErr (list_sound RecType.sound))) fun l b h => Sound.pure ?_
    exact ⟨.type l, rfl, by simpa using BContents.type h, trivial, rfl⟩
  | Import =>
    refine Sound.bind (Sound.mapErr (Sound.mapErr (list_sound import_sound))) fun l b h => Sound.pure ?_
    exact ⟨.import l, rfl, by simpa using BContents.import h, trivial, rfl⟩
  | Function =>
    refine Sound.bind (Sound.mapErr (Sound.mapErr (list_sound TypeIdx.sound))) fun l b h => Sound.pure ?_
    exact ⟨.function l, rfl, by simpa using BContents.function h, trivial, rfl⟩
  | Table =>
    refine Sound.bind (Sound.mapErr (Sound.mapErr (list_sound table_sound))) fun l b h => Sound.pure ?_
    exact ⟨.table l, rfl, by simpa using BContents.table h, trivial, rfl⟩
  | Memory =>
    refine Sound.bind (Sound.mapErr (Sound.mapErr (list_sound memType_sound))) fun l b h => Sound.pure ?_
    exact ⟨.memory l, rfl, by simpa using BContents.memory h, trivial, rfl⟩
  | Tag =>
    refine Sound.bind (Sound.mapErr (Sound.mapErr (list_sound TagType.sound))) fun l b h => Sound.pure ?_
    exact ⟨.tag l, rfl, by simpa using BContents.tag h, trivial, rfl⟩
  | Global =>
    refine Sound.bind (Sound.mapErr (Sound.mapErr (list_sound global_sound))) fun l b h => Sound.pure ?_
    exact ⟨.global l, rfl, by simpa using BContents.global h, trivial, rfl⟩
  | Export =>
    refine Sound.bind (Sound.mapErr (Sound.mapErr (list_sound export_sound))) fun l b h => Sound.pure ?_
    exact ⟨.export l, rfl, by simpa using BContents.export h, trivial, rfl⟩
  | Start =>
    refine Sound.bind (Sound.mapErr (Sound.mapErr FuncIdx.sound)) fun l b h => Sound.pure ?_
    exact ⟨.start l, rfl, by simpa using BContents.start h, trivial, rfl⟩
  | Element =>
    refine Sound.bind (Sound.mapErr (Sound.mapErr (list_sound elem_sound))) fun l b h => Sound.pure ?_
    exact ⟨.element l, rfl, by simpa using BContents.element h, trivial, rfl⟩
  | DataCount =>
    refine Sound.bind (Sound.mapErr (Sound.mapErr decodeU32_sound)) fun l b h => Sound.pure ?_
    exact ⟨.dataCount l, rfl, by simpa using BContents.dataCount h, trivial, rfl⟩
  | Code =>
    refine Sound.bind (Sound.mapErr (Sound.mapErr (list_sound code_sound))) fun cs b h => ?_
    refine Sound.ite (fun _ => Sound.err) fun hl => ?_
    simp only [Decidable.not_not] at hl
    have := fillFuncs_eq (R := R) cs [] st.module.funcs st.encountered_data_idx_in_code_section hl
    simp only [List.length_nil, List.nil_append] at this
    rw [this]
    refine Sound.bind (P := fun b v => b = [] ∧ v = _) (Sound.pure ⟨rfl, rfl⟩) ?_
    rintro _ _ ⟨rfl, rfl⟩
    refine Sound.pure ⟨.code (cs.map Code.toEntry), rfl, ?_, by simpa [secOk] using hl, ?_⟩
    · simpa using BContents.code (list_map Code.toEntry (fun _ _ h => h.toBCode) h)
    · simp only [applySection, list_enc h]
  | Data =>
    refine Sound.bind (Sound.mapErr (Sound.mapErr (list_sound data_sound))) fun l b h => ?_
    split
    · rename_i n hn
      refine Sound.ite (fun _ => Sound.err) fun hl => Sound.pure ?_
      simp only [Decidable.not_not] at hl
      refine ⟨.data l, rfl, by simpa using BContents.data h, ?_, rfl⟩
      intro n' hn'
      rw [hn] at hn'
      cases hn'; exact hl
    · rename_i hn
      refine Sound.pure ⟨.data l, rfl, by simpa using BContents.data h, ?_, rfl⟩
      intro n' hn'
      rw [hn] at hn'; cases hn'

theorem body_runs {s : Section} {bs : Bytes} {st : LoopState} (hk : s.kind ≠ .Custom)
    (h : BContents bs s) (hs : secOk st s) :
    Runs (R := R) (decodeSectionBody s.kind st) bs (applySection st s) := by
  cases h with
  | custom h => exact absurd rfl hk
  | @type l h =>
    exact Runs.bind_pure (f := fun l => applySection st (.type l))
      (Runs.mapErr (Runs.mapErr (list_runs (fun _ _ => RecType.runs) h)))
  | @«import» l h =>
    exact Runs.bind_pure (f := fun l => applySection st (.import l))
      (Runs.mapErr (Runs.mapErr (list_runs (fun _ _ => import_runs) h)))
  | @function l h =>
    exact Runs.bind_pure (f := fun l => applySection st (.function l))
      (Runs.mapErr (Runs.mapErr (list_runs (fun _ _ => TypeIdx.runs) h)))
  | @table l h =>
    exact Runs.bind_pure (f := fun l => applySection st (.table l))
      (Runs.mapErr (Runs.mapErr (list_runs (fun _ _ => table_runs) h)))
  | @memory l h =>
    exact Runs.bind_pure (f := fun l => applySection st (.memory l))
      (Runs.mapErr (Runs.mapErr (list_runs (fun _ _ => memType_runs) h)))
  | @tag l h =>
    exact Runs.bind_pure (f := fun l => applySection st (.tag l))
      (Runs.mapErr (Runs.mapErr (list_runs (fun _ _ => TagType.runs) h)))
  | @global l h =>
    exact Runs.bind_pure (f := fun l => applySection st (.global l))
      (Runs.mapErr (Runs.mapErr (list_runs (fun _ _ => global_runs) h)))
  | @«export» l h =>
    exact Runs.bind_pure (f := fun l => applySection st (.export l))
      (Runs.mapErr (Runs.mapErr (list_runs (fun _ _ => export_runs) h)))
  | @start x h =>
    exact Runs.bind_pure (f := fun l => applySection st (.start l))
      (Runs.mapErr (Runs.mapErr (FuncIdx.runs h)))
  | @element l h =>
    exact Runs.bind_pure (f := fun l => applySection st (.element l))
      (Runs.mapErr (Runs.mapErr (list_runs (fun _ _ => elem_runs) h)))
  | @dataCount n h =>
    exact Runs.bind_pure (f := fun l => applySection st (.dataCount l))
      (Runs.mapErr (Runs.mapErr (decodeU32_runs h)))
  | @code es h =>
    obtain ⟨cs, hcs, rfl⟩ := list_unmap Code.toEntry (fun _ _ h => BCode.toBCodeD h) h
    rw [← List.append_nil bs]
    refine Runs.bind (Runs.mapErr (Runs.mapErr (list_runs (fun _ _ => code_runs) hcs))) ?_
    have hl : cs.length = st.module.funcs.length := by simpa [secOk] using hs
    refine Runs.ite_neg (by simpa using hl) ?_
    have := fillFuncs_eq (R := R) cs [] st.module.funcs st.encountered_data_idx_in_code_section hl
    simp only [List.length_nil, List.nil_append] at this
    rw [this, list_enc hcs]
    exact Runs.bind (b1 := []) (b2 := []) Runs.pure Runs.pure
  | @data l h =>
    rw [← List.append_nil bs]
    refine Runs.bind (Runs.mapErr (Runs.mapErr (list_runs (fun _ _ => data_runs) h))) ?_
    simp only [secOk] at hs
    split
    · rename_i n hn
      exact Runs.ite_neg (by simpa using hs n hn) Runs.pure
    · exact Runs.pure

theorem body_g {kind : SectionKind} (hk : kind ≠ .Custom) (st : LoopState) :
    G 0 L (decodeSectionBody kind st : Dec R _ _) (decodeSectionBody kind st : Dec S _ _) := by
  cases kind with
  | Custom => exact absurd rfl hk
  | «Type» => exact G.bind0 (g0 (gmap (gmap (list_g fun _ _ => g0 RecType.g)))) fun _ => G.pure
  | Import => exact G.bind0 (g0 (gmap (gmap (list_g fun _ _ => g0 import_g)))) fun _ => G.pure
  | Function => exact G.bind0 (g0 (gmap (gmap (list_g fun _ _ => g0 TypeIdx.g)))) fun _ => G.pure
  | Table => exact G.bind0 (g0 (gmap (gmap (list_g fun _ _ => g0 table_g)))) fun _ => G.pure
  | Memory => exact G.bind0 (g0 (gmap (gmap (list_g fun _ _ => g0 memType_g)))) fun _ => G.pure
  | Tag => exact G.bind0 (g0 (gmap (gmap (list_g fun _ _ => g0 TagType.g)))) fun _ => G.pure
  | Global => exact G.bind0 (g0 (gmap (gmap (list_g fun _ _ => g0 global_g)))) fun _ => G.pure
  | Export => exact G.bind0 (g0 (gmap (gmap (list_g fun _ _ => g0 export_g)))) fun _ => G.pure
  | Start => exact G.bind0 (g0 (gmap (gmap FuncIdx.g))) fun _ => G.pure
  | Element => exact G.bind0 (g0 (gmap (gmap (list_g fun _ _ => g0 elem_g)))) fun _ => G.pure
  | DataCount => exact G.bind0 (g0 (gmap (gmap decodeU32_g))) fun _ => G.pure
  | Code =>
    refine G.bind0 (g0 (gmap (gmap (list_g fun _ _ => g0 code_g)))) fun cs => ?_
    refine G.ite (fun _ => G.err) fun hl => ?_
    simp only [Decidable.not_not] at hl
    have e1 := fillFuncs_eq (R := R) cs [] st.module.funcs st.encountered_data_idx_in_code_section hl
    have e2 := fillFuncs_eq (R := S) cs [] st.module.funcs st.encountered_data_idx_in_code_section hl
    simp only [List.length_nil, List.nil_append] at e1 e2
    rw [e1, e2]
    exact G.bind0 G.pure fun _ => G.pure
  | Data =>
    refine G.bind0 (g0 (gmap (gmap (list_g fun _ _ => g0 data_g)))) fun l => ?_
    split
    · exact G.ite (fun _ => G.err) fun _ => G.pure
    · exact G.pure

/-! ### Order -/

theorem stateOf_kinds (secs : List (UInt32 × Section)) :
    (stateOf secs).module.parsed_section_kinds = nonCustom (secs.map Prod.snd) := rfl

theorem getLast_rank {l : List SectionKind} {p : SectionKind} (hl : Sorted l)
    (h : l.getLast? = some p) : ∀ k ∈ l, k.rank ≤ p.rank := by
  obtain ⟨l', rfl⟩ := List.getLast?_eq_some_iff.1 h
  intro k hk
  rw [Sorted, List.pairwise_append] at hl
  rcases List.mem_append.1 hk with hk | hk
  · exact Nat.le_of_lt (hl.2.2 k hk p (by simp))
  · simp at hk; rw [hk]; exact Nat.le_refl _

/-- The order check succeeds exactly if the section may follow. -/
theorem validate_iff {pre : List (UInt32 × Section)} {s : Section}
    (hl : Sorted (nonCustom (pre.map Prod.snd))) :
    (Sorted (nonCustom (pre.map Prod.snd ++ [s])) ∧
      (Module.validateSectionKindExpected (R := R) (stateOf pre).module s.kind = pure ())) ∨
    (¬ Sorted (nonCustom (pre.map Prod.snd ++ [s])) ∧ ∃ p, (nonCustom (pre.map Prod.snd)).getLast? = some p ∧
      s.kind.rank ≤ p.rank ∧ s.kind ≠ .Custom ∧
      (Module.validateSectionKindExpected (R := R) (stateOf pre).module s.kind =
        Dec.err (if s.kind = p then .DuplicateSection s.kind else .SectionOutOfOrder s.kind p))) := by
  unfold Module.validateSectionKindExpected
  rw [stateOf_kinds, nonCustom_append]
  by_cases hk : s.kind = .Custom
  · left
    rw [nonCustom_custom hk, List.append_nil]
    refine ⟨hl, ?_⟩
    split
    · rfl
    · rw [if_pos hk]
  · rw [nonCustom_single hk]
    cases hp : (nonCustom (pre.map Prod.snd)).getLast? with
    | none =>
      left
      rw [List.getLast?_eq_none_iff] at hp
      rw [hp]
      exact ⟨by simp [Sorted], rfl⟩
    | some p =>
      have hr := getLast_rank hl hp
      by_cases hlt : p.rank < s.kind.rank
      · left
        refine ⟨?_, ?_⟩
        · rw [Sorted, List.pairwise_append]
          refine ⟨hl, by simp, fun a ha b hb => ?_⟩
          simp at hb; subst hb
          have := hr a ha
          omega
        · simp only
          rw [if_neg hk, if_neg (by omega), if_neg (by intro h; rw [h] at hlt; omega)]
      · right
        refine ⟨?_, p, rfl, by omega, hk, ?_⟩
        · intro h
          rw [Sorted, List.pairwise_append] at h
          exact hlt (h.2.2 p (List.mem_of_getLast? hp) _ (by simp))
        · simp only
          rw [if_neg hk]
          by_cases he : s.kind = p
          · rw [if_neg (by rw [he]; omega), if_pos he, if_pos he]
          · have : s.kind.rank ≠ p.rank := fun h => he (SectionKind.rank_inj h)
            rw [if_pos (by omega), if_neg he]

end Wadec
