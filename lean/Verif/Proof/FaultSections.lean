import Verif.Proof.FaultExpr
import Verif.Proof.Module

/-! C55: the errors of the decoders of section contents. -/

namespace Wadec

open LawfulRead Spec

variable {R : Type} [LawfulRead R]

theorem expr'_faults : Faults (decodeExpr' : Dec R _ _) FExpr := by
  refine Faults.mk (Errs.last expr_faults.errs) ?_
  intro x bs e h
  exact FailsIn.bind1 (expr_faults.fails h)

theorem import_faults : Faults (parseImport : Dec R _ _) FImport := by
  refine Faults.mk ?_ ?_
  · refine Errs.bind (ferr name_faults) (Sound.mapErr name_sound) fun s b hs => ?_
    refine Errs.bind (Errs.mapErr (Errs.mono name_faults.errs fun x c e h => .item hs h))
      (Sound.mapErr name_sound) fun t c ht => ?_
    exact Errs.last (Errs.mapErr (Errs.mono ExternType.faults.errs fun x d e h => .type hs ht h))
  · intro x bs e h
    cases h with
    | «module» h => exact FailsIn.bind1 (ffail name_faults)
    | item h1 h2 => exact FailsIn.bind2 (Runs.mapErr (name_runs h1)) (FailsIn.bind1 (ffail name_faults))
    | type h1 h2 h3 =>
      exact FailsIn.bind2 (Runs.mapErr (name_runs h1))
        (FailsIn.bind2 (Runs.mapErr (name_runs h2)) (FailsIn.bind1 (ffail ExternType.faults)))

theorem export_faults : Faults (parseExport : Dec R _ _) FExport := by
  refine Faults.mk ?_ ?_
  · refine Errs.bind (ferr name_faults) (Sound.mapErr name_sound) fun s b hs => ?_
    refine Errs.byte (fun x => ?_) fun m => ?_
    · rw [List.append_nil]; exact .missing hs
    refine Errs.bind (Errs.mapErr (Errs.mono u32_faults.errs fun x c e h => .index hs h))
      (Sound.mapErr decodeU32_sound) fun i c hi => ?_
    refine Errs.last (Errs.mapErr ?_)
    unfold ExternIdx.from
    refine Errs.ite (fun _ => Errs.pure) fun h0 => Errs.ite (fun _ => Errs.pure) fun h1 =>
      Errs.ite (fun _ => Errs.pure) fun h2 => Errs.ite (fun _ => Errs.pure) fun h3 =>
      Errs.ite (fun _ => Errs.pure) fun h4 => ?_
    exact Errs.err fun x t => .kind hs hi (by simp [h0, h1, h2, h3, h4])
  · intro x bs e h
    cases h with
    | name h => exact FailsIn.bind1 (ffail name_faults)
    | missing h =>
      rw [← List.append_nil bs]
      exact FailsIn.bind2 (Runs.mapErr (name_runs h)) FailsIn.noByte
    | index h1 h2 =>
      exact FailsIn.bind2 (Runs.mapErr (name_runs h1)) (FailsIn.byte (FailsIn.bind1 (ffail u32_faults)))
    | kind h1 h2 hm =>
      simp only [List.mem_cons, List.not_mem_nil, or_false, not_or] at hm
      refine FailsIn.bind2 (Runs.mapErr (name_runs h1)) (FailsIn.byte (FailsIn.bind2 (Runs.mapErr
        (decodeU32_runs h2)) (FailsIn.bind1 (FailsIn.mapErr ?_))))
      unfold ExternIdx.from
      exact FailsIn.ite_neg hm.1 (FailsIn.ite_neg hm.2.1 (FailsIn.ite_neg hm.2.2.1
        (FailsIn.ite_neg hm.2.2.2.1 (FailsIn.ite_neg hm.2.2.2.2 FailsIn.err))))

theorem global_faults : Faults (parseGlobal : Dec R _ _) FGlobal := by
  refine Faults.mk ?_ ?_
  · refine Errs.bind (ferr GlobalType.faults) (Sound.mapErr GlobalType.sound) fun t b ht => ?_
    exact Errs.last (Errs.mapErr (Errs.mono expr'_faults.errs fun x c e h => .init ht h))
  · intro x bs e h
    cases h with
    | type h => exact FailsIn.bind1 (ffail GlobalType.faults)
    | init h1 h2 =>
      exact FailsIn.bind2 (Runs.mapErr (GlobalType.runs h1)) (FailsIn.bind1 (ffail expr'_faults))

theorem table_faults : Faults (decodeTable : Dec R _ _) FTable := by
  refine Faults.mk ?_ ?_
  · refine Errs.byte (fun x => .missing (by simp)) fun m => ?_
    refine Errs.ite ?_ fun hm => ?_
    · rintro rfl
      refine Errs.byte (fun x => .missing (by simp)) fun m => ?_
      refine Errs.ite (fun hm => Errs.err fun x t => .marker hm) fun hm => ?_
      simp only [ne_eq, Decidable.not_not] at hm
      subst hm
      refine Errs.bind (ferr TableType.faults) (Sound.mapErr TableType.sound) fun t b ht => ?_
      exact Errs.last (Errs.mapErr (Errs.mono expr'_faults.errs fun x c e h => .init ht h))
    · exact Errs.last (Errs.mapErr (Errs.mono (Errs.withChain TableType.faults.errs) fun x t e h => .type hm h))
  · intro x bs e h
    cases h with
    | missing hb =>
      simp only [List.mem_cons, List.not_mem_nil, or_false] at hb
      rcases hb with rfl | rfl
      · exact FailsIn.noByte
      · exact FailsIn.byte (FailsIn.ite_pos rfl FailsIn.noByte)
    | marker hm => exact FailsIn.byte (FailsIn.ite_pos rfl (FailsIn.byte (FailsIn.ite_pos hm FailsIn.err)))
    | initType h => exact FailsIn.byte (FailsIn.ite_pos rfl (FailsIn.byte (FailsIn.ite_neg (by simp)
        (FailsIn.bind1 (ffail TableType.faults)))))
    | init h1 h2 => exact FailsIn.byte (FailsIn.ite_pos rfl (FailsIn.byte (FailsIn.ite_neg (by simp)
        (FailsIn.bind2 (Runs.mapErr (TableType.runs h1)) (FailsIn.bind1 (ffail expr'_faults))))))
    | type hm h => exact FailsIn.byte (FailsIn.ite_neg hm (FailsIn.bind1 (FailsIn.mapErr
        (FailsIn.withChain (TableType.faults.fails h)))))

/-- A flag that is none of the literals below `k`. -/
theorem flag_gt {n : UInt32} {k : Nat} (h : ∀ m < k, n.toNat ≠ m) : k ≤ n.toNat := by
  rcases Nat.lt_or_ge n.toNat k with h' | h'
  · exact absurd rfl (h _ h')
  · exact h'

theorem u32_ne {n m : UInt32} (h : ¬ n = m) : n.toNat ≠ m.toNat :=
  fun h' => h (UInt32.toNat_inj.1 h')

theorem u32_ne' {n m : UInt32} (h : n.toNat ≠ m.toNat) : ¬ n = m := fun h' => h (h' ▸ rfl)

theorem flag_runs {b : Bytes} {k : Nat} {n : UInt32} (h : BU 32 b k) (hk : n.toNat = k) :
    Runs (R := R) decodeU32 b n := decodeU32_runs (by unfold BU32; rw [hk]; exact h)

theorem data_faults : Faults (parseData : Dec R _ _) FData := by
  refine Faults.mk ?_ ?_
  · refine Errs.bind (ferr u32_faults) (Sound.mapErr decodeU32_sound) fun n b hn => ?_
    refine Errs.ite ?_ fun h0 => Errs.ite ?_ fun h1 => Errs.ite ?_ fun h2 => ?_
    · rintro rfl
      refine Errs.bind (Errs.mapErr (Errs.mono expr'_faults.errs fun x c e h => .offset0 hn h))
        (Sound.mapErr expr'_sound) fun l c hl => ?_
      exact Errs.last (Errs.mapErr (Errs.mono byteVec_faults.errs fun x d e h => .init0 hn hl h))
    · rintro rfl
      exact Errs.last (Errs.mapErr (Errs.mono byteVec_faults.errs fun x d e h => .init1 hn h))
    · rintro rfl
      refine Errs.bind (Errs.mapErr (Errs.mono MemIdx.faults.errs fun x c e h => .mem hn h))
        (Sound.mapErr MemIdx.sound) fun i c hi => ?_
      refine Errs.bind (Errs.mapErr (Errs.mono expr'_faults.errs fun x d e h => .offset2 hn hi h))
        (Sound.mapErr expr'_sound) fun l d hl => ?_
      exact Errs.last (Errs.mapErr (Errs.mono byteVec_faults.errs fun x f e h => .init2 hn hi hl h))
    · refine Errs.err fun x t => .flagRange hn ?_
      have := u32_ne h0; have := u32_ne h1; have := u32_ne h2
      simp at *; omega
  · intro x bs e h
    cases h with
    | flag h => exact FailsIn.bind1 (ffail u32_faults)
    | flagRange h hm =>
      exact FailsIn.bind2 (Runs.mapErr (decodeU32_runs h)) (FailsIn.ite_neg (u32_ne' (by simp; omega))
        (FailsIn.ite_neg (u32_ne' (by simp; omega)) (FailsIn.ite_neg (u32_ne' (by simp; omega)) FailsIn.err)))
    | mem h1 h2 =>
      exact FailsIn.bind2 (Runs.mapErr (flag_runs (n := 2) h1 rfl)) (FailsIn.ite_neg (by decide)
        (FailsIn.ite_neg (by decide) (FailsIn.ite_pos rfl (FailsIn.bind1 (ffail MemIdx.faults)))))
    | offset0 h1 h2 =>
      exact FailsIn.bind2 (Runs.mapErr (flag_runs (n := 0) h1 rfl)) (FailsIn.ite_pos rfl
        (FailsIn.bind1 (ffail expr'_faults)))
    | offset2 h1 h2 h3 =>
      exact FailsIn.bind2 (Runs.mapErr (flag_runs (n := 2) h1 rfl)) (FailsIn.ite_neg (by decide)
        (FailsIn.ite_neg (by decide) (FailsIn.ite_pos rfl (FailsIn.bind2 (Runs.mapErr (MemIdx.runs h2))
          (FailsIn.bind1 (ffail expr'_faults))))))
    | init0 h1 h2 h3 =>
      exact FailsIn.bind2 (Runs.mapErr (flag_runs (n := 0) h1 rfl)) (FailsIn.ite_pos rfl
        (FailsIn.bind2 (Runs.mapErr (expr'_runs h2)) (FailsIn.bind1 (ffail byteVec_faults))))
    | init1 h1 h2 =>
      exact FailsIn.bind2 (Runs.mapErr (flag_runs (n := 1) h1 rfl)) (FailsIn.ite_neg (by decide)
        (FailsIn.ite_pos rfl (FailsIn.bind1 (ffail byteVec_faults))))
    | init2 h1 h2 h3 h4 =>
      exact FailsIn.bind2 (Runs.mapErr (flag_runs (n := 2) h1 rfl)) (FailsIn.ite_neg (by decide)
        (FailsIn.ite_neg (by decide) (FailsIn.ite_pos rfl (FailsIn.bind2 (Runs.mapErr (MemIdx.runs h2))
          (FailsIn.bind2 (Runs.mapErr (expr'_runs h3)) (FailsIn.bind1 (ffail byteVec_faults)))))))

theorem elemKind_faults : Faults (parseElemKind : Dec R _ _) FElemKind := by
  refine Faults.mk ?_ ?_
  · exact Errs.byte (fun x => .missing) fun m => Errs.ite (fun hm => Errs.err fun x t => .kind hm)
      fun _ => Errs.pure
  · intro x bs e h
    cases h with
    | missing => exact FailsIn.noByte
    | kind hm => exact FailsIn.byte (FailsIn.ite_pos hm FailsIn.err)

theorem funcIdxs_faults : Faults (decodeList FuncIdx.decode : Dec R _ _) (FList FFuncIdx BFuncIdx) :=
  list_faults FuncIdx.sound (fun _ _ => FuncIdx.runs) FuncIdx.faults

theorem exprs_faults : Faults (decodeList decodeExpr' : Dec R _ _) (FList FExpr BExpr) :=
  list_faults expr'_sound (fun _ _ => expr'_runs) expr'_faults

theorem elemFuncs_errs {F : End → Bytes → DecodeElementError → Prop}
    (h : ∀ x b e, FList FFuncIdx BFuncIdx x b e → F x b (.DecodeFuncIdxVector e)) :
    Errs (elemFuncs : Dec R _ _) F := Errs.mapErr (Errs.mono funcIdxs_faults.errs h)

theorem elemExprs_errs {F : End → Bytes → DecodeElementError → Prop}
    (h : ∀ x b e, FList FExpr BExpr x b e → F x b (.DecodeInit e)) :
    Errs (elemExprs : Dec R _ _) F := Errs.mapErr (Errs.mono exprs_faults.errs h)

/-- The rest of an element segment fails: what `parseElem` does for the flag `n`. -/
theorem elem_flag {n : UInt32} {b c : Bytes} {k : Nat} {x : End} {e : DecodeElementError}
    {f : UInt32 → Dec R DecodeElementError Elem} (h : BU 32 b k) (hk : n.toNat = k)
    (hf : FailsIn (f n) x c e) :
    FailsIn (decodeU32.mapErr DecodeElementError.DecodeBitfield >>= f) x (b ++ c) e :=
  FailsIn.bind2 (Runs.mapErr (flag_runs h hk)) hf

theorem elem_errs : Errs (parseElem : Dec R _ _) FElem := by
  refine Errs.bind (ferr u32_faults) (Sound.mapErr decodeU32_sound) fun n b hn => ?_
  refine Errs.ite ?_ fun h0 => Errs.ite ?_ fun h1 => Errs.ite ?_ fun h2 => Errs.ite ?_ fun h3 =>
    Errs.ite ?_ fun h4 => Errs.ite ?_ fun h5 => Errs.ite ?_ fun h6 => Errs.ite ?_ fun h7 => ?_
  · rintro rfl
    refine Errs.bind (Errs.mapErr (Errs.mono expr'_faults.errs fun x c e h => .offset04 hn (by decide) h))
      (Sound.mapErr expr'_sound) fun l c hl => ?_
    exact Errs.last (elemFuncs_errs fun x d e h => .funcs0 hn hl h)
  · rintro rfl
    refine Errs.bind (Errs.mapErr (Errs.mono elemKind_faults.errs fun x c e h => .kind13 hn (by decide) h))
      (Sound.mapErr elemKind_sound) ?_
    rintro rt _ ⟨rfl, _⟩
    exact Errs.last (elemFuncs_errs fun x d e h => .funcs13 hn (by decide) h)
  · rintro rfl
    refine Errs.bind (Errs.mapErr (Errs.mono TableIdx.faults.errs fun x c e h => .table hn (by decide) h))
      (Sound.mapErr TableIdx.sound) fun i c hi => ?_
    refine Errs.bind (Errs.mapErr (Errs.mono expr'_faults.errs fun x d e h => .offset2 hn hi h))
      (Sound.mapErr expr'_sound) fun l d hl => ?_
    refine Errs.bind (Errs.mapErr (Errs.mono elemKind_faults.errs fun x c e h => .kind2 hn hi hl h))
      (Sound.mapErr elemKind_sound) ?_
    rintro rt _ ⟨rfl, _⟩
    exact Errs.last (elemFuncs_errs fun x d e h => .funcs2 hn hi hl h)
  · rintro rfl
    refine Errs.bind (Errs.mapErr (Errs.mono elemKind_faults.errs fun x c e h => .kind13 hn (by decide) h))
      (Sound.mapErr elemKind_sound) ?_
    rintro rt _ ⟨rfl, _⟩
    exact Errs.last (elemFuncs_errs fun x d e h => .funcs13 hn (by decide) h)
  · rintro rfl
    refine Errs.bind (Errs.mapErr (Errs.mono expr'_faults.errs fun x c e h => .offset04 hn (by decide) h))
      (Sound.mapErr expr'_sound) fun l c hl => ?_
    exact Errs.last (elemExprs_errs fun x d e h => .exprs4 hn hl h)
  · rintro rfl
    refine Errs.bind (Errs.mapErr (Errs.mono RefType.faults.errs fun x c e h => .type57 hn (by decide) h))
      (Sound.mapErr RefType.sound) fun t c ht => ?_
    exact Errs.last (elemExprs_errs fun x d e h => .exprs57 hn (by decide) ht h)
  · rintro rfl
    refine Errs.bind (Errs.mapErr (Errs.mono TableIdx.faults.errs fun x c e h => .table hn (by decide) h))
      (Sound.mapErr TableIdx.sound) fun i c hi => ?_
    refine Errs.bind (Errs.mapErr (Errs.mono expr'_faults.errs fun x d e h => .offset6 hn hi h))
      (Sound.mapErr expr'_sound) fun l d hl => ?_
    refine Errs.bind (Errs.mapErr (Errs.mono RefType.faults.errs fun x c e h => .type6 hn hi hl h))
      (Sound.mapErr RefType.sound) fun t f ht => ?_
    exact Errs.last (elemExprs_errs fun x d e h => .exprs6 hn hi hl ht h)
  · rintro rfl
    refine Errs.bind (Errs.mapErr (Errs.mono RefType.faults.errs fun x c e h => .type57 hn (by decide) h))
      (Sound.mapErr RefType.sound) fun t c ht => ?_
    exact Errs.last (elemExprs_errs fun x d e h => .exprs57 hn (by decide) ht h)
  · refine Errs.err fun x t => .flagRange hn ?_
    have := u32_ne h0; have := u32_ne h1; have := u32_ne h2; have := u32_ne h3
    have := u32_ne h4; have := u32_ne h5; have := u32_ne h6; have := u32_ne h7
    simp at *; omega

/-- Choose the branch of a chain of comparisons with literals. -/
macro "fbranch" t:term:max : tactic => `(tactic| (
  repeat (refine FailsIn.ite_neg (by decide) ?_)
  refine FailsIn.ite_pos rfl ?_
  exact $t))

theorem elem_failsIn {x : End} {bs : Bytes} {e : DecodeElementError} (h : FElem x bs e) :
    FailsIn (R := R) parseElem x bs e := by
  cases h with
  | flag h => exact FailsIn.bind1 (ffail u32_faults)
  | flagRange h hm =>
    refine FailsIn.bind2 (Runs.mapErr (decodeU32_runs h)) ?_
    repeat (refine FailsIn.ite_neg (u32_ne' (by simp; omega)) ?_)
    exact FailsIn.err
  | table h1 hn h2 =>
    simp only [List.mem_cons, List.not_mem_nil, or_false] at hn
    rcases hn with rfl | rfl
    · refine elem_flag (n := 2) h1 rfl ?_
      fbranch (FailsIn.bind1 (ffail TableIdx.faults))
    · refine elem_flag (n := 6) h1 rfl ?_
      fbranch (FailsIn.bind1 (ffail TableIdx.faults))
  | offset04 h1 hn h2 =>
    simp only [List.mem_cons, List.not_mem_nil, or_false] at hn
    rcases hn with rfl | rfl
    · refine elem_flag (n := 0) h1 rfl ?_
      fbranch (FailsIn.bind1 (ffail expr'_faults))
    · refine elem_flag (n := 4) h1 rfl ?_
      fbranch (FailsIn.bind1 (ffail expr'_faults))
  | offset6 h1 h2 h3 =>
    refine elem_flag (n := 6) h1 rfl ?_
    fbranch (FailsIn.bind2 (Runs.mapErr (TableIdx.runs h2)) (FailsIn.bind1 (ffail expr'_faults)))
  | offset2 h1 h2 h3 =>
    refine elem_flag (n := 2) h1 rfl ?_
    fbranch (FailsIn.bind2 (Runs.mapErr (TableIdx.runs h2)) (FailsIn.bind1 (ffail expr'_faults)))
  | kind13 h1 hn h2 =>
    simp only [List.mem_cons, List.not_mem_nil, or_false] at hn
    rcases hn with rfl | rfl
    · refine elem_flag (n := 1) h1 rfl ?_
      fbranch (FailsIn.bind1 (ffail elemKind_faults))
    · refine elem_flag (n := 3) h1 rfl ?_
      fbranch (FailsIn.bind1 (ffail elemKind_faults))
  | kind2 h1 h2 h3 h4 =>
    refine elem_flag (n := 2) h1 rfl ?_
    fbranch (FailsIn.bind2 (Runs.mapErr (TableIdx.runs h2)) (FailsIn.bind2 (Runs.mapErr (expr'_runs h3))
      (FailsIn.bind1 (ffail elemKind_faults))))
  | type57 h1 hn h2 =>
    simp only [List.mem_cons, List.not_mem_nil, or_false] at hn
    rcases hn with rfl | rfl
    · refine elem_flag (n := 5) h1 rfl ?_
      fbranch (FailsIn.bind1 (ffail RefType.faults))
    · refine elem_flag (n := 7) h1 rfl ?_
      fbranch (FailsIn.bind1 (ffail RefType.faults))
  | type6 h1 h2 h3 h4 =>
    refine elem_flag (n := 6) h1 rfl ?_
    fbranch (FailsIn.bind2 (Runs.mapErr (TableIdx.runs h2)) (FailsIn.bind2 (Runs.mapErr (expr'_runs h3))
      (FailsIn.bind1 (ffail RefType.faults))))
  | funcs0 h1 h2 h3 =>
    refine elem_flag (n := 0) h1 rfl ?_
    fbranch (FailsIn.bind2 (Runs.mapErr (expr'_runs h2)) (FailsIn.bind1 (ffail funcIdxs_faults)))
  | funcs13 h1 hn h2 =>
    simp only [List.mem_cons, List.not_mem_nil, or_false] at hn
    rcases hn with rfl | rfl
    · refine elem_flag (n := 1) h1 rfl ?_
      fbranch (FailsIn.bind2 (b1 := [0x00]) (Runs.mapErr elemKind_runs) (FailsIn.bind1 (ffail funcIdxs_faults)))
    · refine elem_flag (n := 3) h1 rfl ?_
      fbranch (FailsIn.bind2 (b1 := [0x00]) (Runs.mapErr elemKind_runs) (FailsIn.bind1 (ffail funcIdxs_faults)))
  | funcs2 h1 h2 h3 h4 =>
    refine elem_flag (n := 2) h1 rfl ?_
    fbranch (FailsIn.bind2 (Runs.mapErr (TableIdx.runs h2)) (FailsIn.bind2 (Runs.mapErr (expr'_runs h3))
      (FailsIn.bind2 (b1 := [0x00]) (Runs.mapErr elemKind_runs) (FailsIn.bind1 (ffail funcIdxs_faults)))))
  | exprs4 h1 h2 h3 =>
    refine elem_flag (n := 4) h1 rfl ?_
    fbranch (FailsIn.bind2 (Runs.mapErr (expr'_runs h2)) (FailsIn.bind1 (ffail exprs_faults)))
  | exprs57 h1 hn h2 h3 =>
    simp only [List.mem_cons, List.not_mem_nil, or_false] at hn
    rcases hn with rfl | rfl
    · refine elem_flag (n := 5) h1 rfl ?_
      fbranch (FailsIn.bind2 (Runs.mapErr (RefType.runs h2)) (FailsIn.bind1 (ffail exprs_faults)))
    · refine elem_flag (n := 7) h1 rfl ?_
      fbranch (FailsIn.bind2 (Runs.mapErr (RefType.runs h2)) (FailsIn.bind1 (ffail exprs_faults)))
  | exprs6 h1 h2 h3 h4 h5 =>
    refine elem_flag (n := 6) h1 rfl ?_
    fbranch (FailsIn.bind2 (Runs.mapErr (TableIdx.runs h2)) (FailsIn.bind2 (Runs.mapErr (expr'_runs h3))
      (FailsIn.bind2 (Runs.mapErr (RefType.runs h4)) (FailsIn.bind1 (ffail exprs_faults)))))

theorem elem_faults : Faults (parseElem : Dec R _ _) FElem := Faults.mk elem_errs fun _ _ _ => elem_failsIn

/-! ### Code entries -/

/-- The errors of one run of locals, after `st` locals. -/
inductive FLocal (st : UInt64) (x : End) : Bytes → DecodeCodeLocalsError → Prop
  | count {b : Bytes} {e : DecodeU32Error} : FU32 x b e → FLocal st x b (.DecodeLocalsCount e)
  | tooMany {b t : Bytes} {k : UInt32} {s : UInt64} : BU32 b k → s.toNat = st.toNat + k.toNat →
      2 ^ 32 ≤ s.toNat → FLocal st x (b ++ t) (.LocalsCountOutOfBound 4294967295 s)
  | type {b c : Bytes} {k : UInt32} {e : DecodeValTypeError} : BU32 b k → st.toNat + k.toNat < 2 ^ 32 →
      FValType x c e → FLocal st x (b ++ c) (.DecodeLocalValType e)

theorem codeLocal_errs (st : UInt64) : Errs (parseCodeLocal st : Dec R _ _) (FLocal st) := by
  refine Errs.bind (ferr u32_faults) (Sound.mapErr decodeU32_sound) fun k b hk => ?_
  have := UInt32.toNat_lt k
  have hm : maxLocals.toNat = 4294967295 := rfl
  refine Errs.ite (fun _ => Errs.panic) fun hp => ?_
  have e : (st + k.toUInt64).toNat = st.toNat + k.toNat := by
    rw [UInt64.toNat_add, UInt32.toNat_toUInt64]; omega
  refine Errs.ite (fun h => ?_) fun h => ?_
  · rw [UInt64.lt_iff_toNat_lt] at h
    exact Errs.err fun x t => .tooMany hk e (by omega)
  · rw [UInt64.lt_iff_toNat_lt] at h
    exact Errs.last (Errs.mapErr (Errs.mono ValType.faults.errs fun x t e' h' => .type hk (by omega) h'))

theorem codeLocal_failsIn {st : UInt64} {x : End} {bs : Bytes} {e : DecodeCodeLocalsError}
    (hst : st.toNat < 2 ^ 32) (h : FLocal st x bs e) : FailsIn (R := R) (parseCodeLocal st) x bs e := by
  have hm : maxLocals.toNat = 4294967295 := rfl
  have key : ∀ k : UInt32, (st + k.toUInt64).toNat = st.toNat + k.toNat := by
    intro k
    have := UInt32.toNat_lt k
    rw [UInt64.toNat_add, UInt32.toNat_toUInt64]; omega
  cases h with
  | count h => exact FailsIn.bind1 (ffail u32_faults)
  | @tooMany b t k s h1 h2 h3 =>
    have := UInt32.toNat_lt k
    have hs : st + k.toUInt64 = s := UInt64.toNat_inj.1 (by rw [key, h2])
    refine FailsIn.bind2 (Runs.mapErr (decodeU32_runs h1)) (FailsIn.ite_neg (by omega) (FailsIn.ite_pos ?_ ?_))
    · rw [hs, UInt64.lt_iff_toNat_lt]; omega
    · rw [hs]; exact FailsIn.err
  | @type b c k e h1 h2 h3 =>
    refine FailsIn.bind2 (Runs.mapErr (decodeU32_runs h1)) (FailsIn.ite_neg (by omega) (FailsIn.ite_neg ?_
      (FailsIn.bind1 (ffail ValType.faults))))
    rw [UInt64.lt_iff_toNat_lt, key]; omega

/-- The specification's form of a run of locals. -/
def Local.pair (l : Local) : UInt32 × ValType := (l.count, l.t)

theorem length_localsOf (ls : List Local) : (localsOf (ls.map Local.pair)).length = sumLocals ls := by
  have := length_expandLocals ls
  rw [expandLocals_eq] at this
  exact this

theorem seq_pair {bs : Bytes} {ls : List Local} (h : BSeq BLocal bs ls) :
    BSeq BLocals bs (ls.map Local.pair) := seq_map Local.pair (fun _ _ h => h) h

theorem seq_unpair {bs : Bytes} {l : List (UInt32 × ValType)} (h : BSeq BLocals bs l) :
    ∃ ls, BSeq BLocal bs ls ∧ l = ls.map Local.pair :=
  seq_unmap (A := BLocal) Local.pair (fun _ y h => ⟨⟨y.1, y.2⟩, h, rfl⟩) h

theorem steps_state {st : UInt64} {c : Bytes} {ls : List Local} (h : Steps LocalStep 0 c ls st) :
    BSeq BLocal c ls ∧ st.toNat = sumLocals ls ∧ st.toNat < 2 ^ 32 := by
  obtain ⟨h1, h2, h3⟩ := localSteps_seq h
  have e0 : (0 : UInt64).toNat = 0 := rfl
  refine ⟨h1, by omega, ?_⟩
  by_cases hl : ls = []
  · subst hl; simp only [sumLocals] at h2; omega
  · exact h3 hl

theorem locals_faults : Faults (decodeListS parseCodeLocal 0 : Dec R _ _) FLocals := by
  have e0 : (0 : UInt64).toNat = 0 := rfl
  refine Faults.mk ?_ ?_
  · refine Errs.bind (ferr u32_faults) (Sound.mapErr decodeU32_sound) fun n b hn => ?_
    refine Errs.reserve_bind ?_
    refine Errs.mono (listLoop_errs (F := FLocal) codeLocal_sound codeLocal_errs _ _ _ _) ?_
    rintro x _ e ⟨c, ls, st, t, e', rfl, h1, h2, h3, rfl⟩
    obtain ⟨h4, h5, h6⟩ := steps_state h1
    have hlen := length_localsOf ls
    have := UInt32.toNat_lt n
    have hi : (0 + UInt32.ofNat ls.length).toNat = (ls.map Local.pair).length := by simp; omega
    have hl : (ls.map Local.pair).length < n.toNat := by simpa using h2
    cases h3 with
    | count h => exact .count hn (seq_pair h4) hi hl (by omega) h
    | tooMany g1 g2 g3 => exact .tooMany hn (seq_pair h4) hi hl (by omega) g1 (by omega) g3
    | type g1 g2 g3 => exact .type hn (seq_pair h4) hi hl g1 (by omega) g3
  · have key : ∀ {x : End} {b c t : Bytes} {n i : UInt32} {l : List (UInt32 × ValType)} {e : DecodeCodeLocalsError},
        BU32 b n → BSeq BLocals c l → i.toNat = l.length → l.length < n.toNat →
        (localsOf l).length < 2 ^ 32 →
        (∀ st : UInt64, st.toNat = (localsOf l).length → FLocal st x t e) →
        FailsIn (R := R) (decodeListS parseCodeLocal 0) x (b ++ (c ++ t)) (.ParseElement i e) := by
      intro x b c t n i l e h1 h2 h3 h4 h5 h6
      refine FailsIn.bind2 (Runs.mapErr (decodeU32_runs h1)) (FailsIn.reserve_bind ?_)
      obtain ⟨ls, h7, rfl⟩ := seq_unpair h2
      have hlen := length_localsOf ls
      obtain ⟨st, h8⟩ := seq_localSteps h7 0 (by omega)
      obtain ⟨_, h9, h10⟩ := steps_state h8
      have := listLoop_failsIn (P := LocalStep) (f := parseCodeLocal (R := R)) codeLocal_runs
        (codeLocal_failsIn h10 (h6 st (by omega))) ls n.toNat 0 0 [] c (by simpa using h4) h8
      have hi : 0 + UInt32.ofNat ls.length = i := by
        apply UInt32.toNat_inj.1
        have := UInt32.toNat_lt n
        simp at h3 h4 ⊢; omega
      rw [hi] at this
      exact this
    intro x bs e h
    cases h with
    | length h => exact FailsIn.bind1 (ffail u32_faults)
    | count h1 h2 h3 h4 h5 h6 => exact key h1 h2 h3 h4 h5 fun st _ => .count h6
    | tooMany h1 h2 h3 h4 h5 h6 h7 h8 =>
      exact key h1 h2 h3 h4 h5 fun st hst => .tooMany h6 (by rw [hst]; exact h7) h8
    | type h1 h2 h3 h4 h5 h6 h7 =>
      exact key h1 h2 h3 h4 (by omega) fun st hst => .type h5 (by rw [hst]; exact h6) h7

/-- The errors of a function body. -/
inductive FBody (x : End) : Bytes → DecodeCodeError → Prop
  | locals {b : Bytes} {e : DecodeListError DecodeCodeLocalsError} : FLocals x b e →
      FBody x b (.DecodeLocalsVector e)
  | body {b t : Bytes} {l : List (UInt32 × ValType)} {e : ParseExpressionError} : BList BLocals b l →
      (localsOf l).length < 2 ^ 32 → FExpr x t e → FBody x (b ++ t) (.DecodeFunctionBody e)

theorem codeBody_faults : Faults (parseCodeBody : Dec R _ _) FBody := by
  refine Faults.mk ?_ ?_
  · refine Errs.bind (ferr locals_faults) (Sound.mapErr (listS_sound codeLocal_sound)) ?_
    rintro ⟨ls, st⟩ _ ⟨b1, b2, rfl, h1, h2⟩
    simp only at h1 h2
    obtain ⟨h3, h4, h5⟩ := steps_state h2
    have hlen := length_localsOf ls
    refine Errs.last (Errs.mapErr (Errs.mono expr_faults.errs fun x t e h => ?_))
    exact .body (BList.mk (by simpa using h1) (seq_pair h3)) (by omega) h
  · intro x bs e h
    cases h with
    | locals h => exact FailsIn.bind1 (ffail locals_faults)
    | body h1 h2 h3 =>
      cases h1 with
      | mk h4 h5 =>
        obtain ⟨ls, h6, rfl⟩ := seq_unpair h5
        have hlen := length_localsOf ls
        obtain ⟨st', h7⟩ := seq_localSteps h6 0 (by
          have e0 : (0 : UInt64).toNat = 0 := rfl
          omega)
        rw [List.length_map] at h4
        exact FailsIn.bind2 (Runs.mapErr (listS_runs codeLocal_runs (Wadec.BU.lt h4) h4 h7))
          (FailsIn.bind1 (ffail expr_faults))

theorem BBodyD.toBFunc {bs : Bytes} {v : List Local × Expr × Bool} (h : BBodyD bs v) :
    ∃ c, BFunc bs c := by
  cases h with
  | @mk b2 b3 ls e h1 h2 h3 =>
    have hlen := length_localsOf ls
    exact ⟨_, BFunc.mk (list_map Local.pair (fun _ _ h => h) h1) h2 (by omega)⟩

theorem BFunc.toBBodyD {bs : Bytes} {c : CodeEntry} (h : BFunc bs c) : ∃ v, BBodyD bs v := by
  cases h with
  | @mk b2 b3 l e h1 h2 h3 =>
    obtain ⟨ls, h4, rfl⟩ := list_unmap (A := BLocal) Local.pair (fun _ y h => ⟨⟨y.1, y.2⟩, h, rfl⟩) h1
    have hlen := length_localsOf ls
    exact ⟨_, BBodyD.mk h4 h2 (by omega)⟩

theorem code_faults : Faults (parseCode : Dec R _ _) FCode := by
  refine Faults.mk ?_ ?_
  · refine Errs.bind (ferr u32_faults) (Sound.mapErr decodeU32_sound) fun n b hn => ?_
    refine Errs.bind (Errs.mono (Errs.withTake codeBody_faults.errs) ?_) (Sound.withTake codeBody_sound) ?_
    · intro x c e h
      generalize hc : c.take n.toNat = c' at h
      cases h with
      | locals h => subst hc; exact .locals hn h
      | body h1 h2 h3 => exact .body hn h1 h2 hc h3
    · rintro ⟨⟨ls, l, d⟩, limit⟩ c ⟨h1, h2⟩
      refine Errs.ite (fun hl => ?_) fun _ => Errs.pure
      simp only at h1 h2 hl
      have := UInt32.toNat_lt n
      obtain ⟨v, hv⟩ := h1.toBFunc
      refine Errs.err fun x t => .leftover (c := c) hn hv ?_ ?_ (by omega)
      · simp; omega
      · simp; omega
  · intro x bs e h
    cases h with
    | size h => exact FailsIn.bind1 (ffail u32_faults)
    | locals h1 h2 =>
      exact FailsIn.bind2 (Runs.mapErr (decodeU32_runs h1)) (FailsIn.bind1 (FailsIn.withTake
        (codeBody_faults.fails (.locals h2))))
    | body h1 h2 h3 h4 h5 =>
      refine FailsIn.bind2 (Runs.mapErr (decodeU32_runs h1)) (FailsIn.bind1 (FailsIn.withTake ?_))
      rw [h4]
      exact codeBody_faults.fails (.body h2 h3 h5)
    | @leftover b c t n k m v h1 h2 h3 h4 h5 =>
      obtain ⟨w, hw⟩ := BFunc.toBBodyD h2
      have := UInt32.toNat_lt n
      refine FailsIn.bind2 (Runs.mapErr (decodeU32_runs h1)) (FailsIn.bind2 (Runs.withTake (by omega)
        (codeBody_runs hw)) ?_)
      obtain ⟨ls, l, d⟩ := w
      refine FailsIn.ite_pos (by omega) ?_
      have e1 : UInt64.ofNat (n.toNat - c.length) = k := by
        apply UInt64.toNat_inj.1; simp; omega
      have e2 : UInt64.ofNat (n.toNat - (n.toNat - c.length)) = m := by
        apply UInt64.toNat_inj.1; simp; omega
      rw [e1, e2]
      exact FailsIn.err

/-! ### Custom sections -/

theorem custom_faults : Faults (decodeSectionCustom : Dec R _ _) (fun x b e =>
    FContents x .Custom b (.DecodeCustomSection e)) := by
  refine Faults.mk ?_ ?_
  · refine Errs.bind (ferr name_faults) (Sound.mapErr name_sound) fun s b hs => ?_
    refine Errs.last (Errs.mapErr ?_)
    intro r e r' h
    have hsp := readToEndLoop_spec (Read.weight r + 1) [] r (by omega)
    simp only [readToEnd] at h
    cases hf : fin r with
    | eof =>
      obtain ⟨r2, h2⟩ := hsp.1 hf
      rw [h2] at h; cases h
    | fail e' =>
      obtain ⟨r2, h2⟩ := hsp.2 e' hf
      rw [h2] at h; cases h
      exact .customRead hs rfl
  · intro x bs e h
    cases h with
    | customName h => exact FailsIn.bind1 (ffail name_faults)
    | customRead h1 h2 =>
      refine FailsIn.bind2 (Runs.mapErr (name_runs h1)) (FailsIn.bind1 (FailsIn.mapErr ?_))
      intro r ha hx
      exact (readToEndLoop_spec (Read.weight r + 1) [] r (by omega)).2 _ (by rw [hx, h2])

end Wadec
