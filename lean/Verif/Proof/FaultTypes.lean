import Verif.Proof.FaultUtf8

/-! C55: the errors of the type decoders. -/

namespace Wadec

open LawfulRead Spec

/-- The error of a part, wrapped. -/
macro "ferr" h:term:max : term => `(Errs.mapErr (Errs.mono (Faults.errs $h)
  fun _ _ _ h => by first | exact h | (constructor <;> first | exact h | assumption)))

/-- A part fails. -/
macro "ffail" h:term:max : term => `(FailsIn.mapErr (Faults.fails $h (by assumption)))

variable {R : Type} [LawfulRead R]

theorem absNone_iff {b : UInt8} : fromMarker AbsHeapType.markers b = none ↔ ∀ t, ¬ BAbsHeapType [b] t := by
  rcases h : fromMarker AbsHeapType.markers b with _ | t
  · simp only [true_iff]
    intro t ht
    rw [absMarker_iff.2 ht] at h; cases h
  · simp only [reduceCtorEq, false_iff]
    exact fun hn => hn t (absMarker_iff.1 h)

theorem mutNone_iff {b : UInt8} : fromMarker Mut.markers b = none ↔ ∀ t, ¬ BMut [b] t := by
  rcases h : fromMarker Mut.markers b with _ | t
  · simp only [true_iff]
    intro t ht
    rw [mutMarker_iff.2 ht] at h; cases h
  · simp only [reduceCtorEq, false_iff]
    exact fun hn => hn t (mutMarker_iff.1 h)

theorem packNone_iff {b : UInt8} : fromMarker PackType.markers b = none ↔ b ∉ [0x77, 0x78] := by
  rcases h : fromMarker PackType.markers b with _ | t
  · simp only [true_iff]
    intro hb
    simp only [List.mem_cons, List.not_mem_nil, or_false] at hb
    rcases hb with rfl | rfl <;> cases h
  · simp only [reduceCtorEq, false_iff]
    rcases packMarker_iff.1 h with ⟨rfl, _⟩ | ⟨rfl, _⟩ <;> simp

/-- A single byte is a complete `s33`, in range. -/
theorem not_fs33 {x : End} {m : UInt8} {b : Bytes} {e : DecodeS33Error} (hm : m.toNat < 128) :
    ¬ FS33 x (m :: b) e := by
  have ht : Terminated [m] := ⟨[], m, rfl, by simp [AllCont], hm⟩
  intro h
  generalize hb : m :: b = bs at h
  cases h with
  | short h1 h2 => subst hb; have := h1 m (by simp); omega
  | @long c t h1 h2 =>
    match c, h2 with
    | c :: cs, _ =>
      simp at hb
      have := h1 c (by simp)
      rw [← hb.1] at this; omega
  | @range c t h1 h2 h3 =>
    have := terminated_unique ht h1 (rest := b) (rest' := t) (by simpa using hb)
    subst this
    simp only [sleb] at h3
    split at h3 <;> omega

theorem BS33.one {m : UInt8} {b : Bytes} {i : Int64} (hm : m.toNat < 128) (h : BS33 (m :: b) i) :
    b = [] := by
  unfold BS33 at h
  generalize hb : m :: b = bs at h
  generalize hv : i.toInt = v at h
  generalize hN : 33 = N at h
  cases h with
  | pos => cases hb; rfl
  | neg => cases hb; rfl
  | more h1 => cases hb; omega

theorem HeapType.faults : Faults (HeapType.decode : Dec R _ _) FHeapType := by
  refine Faults.mk ?_ ?_
  · refine Errs.byte (fun x => .missing) fun m => ?_
    split
    · exact Errs.pure
    · rename_i hm
      refine Errs.bind (Errs.mapErr (Errs.mono (Errs.withChain s33_faults.errs) fun x t e h => .index h))
        (Sound.mapErr (Sound.withChain decodeS33_sound (fun v => BS.nonempty))) fun i b hi => ?_
      refine Errs.ite (fun hn => Errs.err fun x t => ?_) fun hn => ?_
      · exact FHeapType.negative (b := m :: b) hi (by
          intro t ht
          obtain ⟨c, hc⟩ := BAbsHeapType.single ht
          cases hc
          exact absNone_iff.1 hm t ht) hn
      · refine Errs.last ?_
        unfold i64ToU32
        exact Errs.ite (fun _ => Errs.pure) fun _ => Errs.panic
  · intro x bs e h
    cases h with
    | missing => exact FailsIn.noByte
    | @index b e m h =>
      refine FailsIn.byte ?_
      have hm : fromMarker AbsHeapType.markers m = none := absNone_iff.2 fun t ht =>
        not_fs33 (by cases ht <;> decide) h
      rw [hm]
      exact FailsIn.bind1 (FailsIn.mapErr (FailsIn.withChain (s33_faults.fails h)))
    | @negative b i t h1 h2 h3 =>
      match b, h1, h2 with
      | [], h1, _ => exact absurd h1 BS.nonempty
      | m :: b, h1, h2 =>
        refine FailsIn.byte ?_
        have hm : fromMarker AbsHeapType.markers m = none := absNone_iff.2 fun t ht => by
          have := BS33.one (by cases ht <;> decide) h1
          subst this
          exact h2 t ht
        rw [hm]
        exact FailsIn.bind2 (Runs.mapErr (Runs.withChain (decodeS33_runs h1)))
          (FailsIn.ite_pos h3 FailsIn.err)

theorem RefType.faults : Faults (RefType.decode : Dec R _ _) FRefType := by
  refine Faults.mk ?_ ?_
  · refine Errs.byte (fun x => .missing) fun m => ?_
    refine Errs.ite ?_ fun h1 => Errs.ite ?_ fun h2 => ?_
    · rintro rfl
      exact Errs.last (Errs.mapErr (Errs.mono HeapType.faults.errs fun x t e h => .heap (by simp) h))
    · rintro rfl
      exact Errs.last (Errs.mapErr (Errs.mono HeapType.faults.errs fun x t e h => .heap (by simp) h))
    · refine Errs.last (Errs.mapErr ?_)
      refine Errs.mono (Errs.withChain (F := fun x bs e => ∀ b c, bs = b :: c →
        (∀ t, ¬ BAbsHeapType [b] t) ∧ e = .InvalidMarkerByte ⟨b⟩) ?_) ?_
      · refine Errs.byte (fun x b c h => by cases h) fun b => ?_
        split
        · exact Errs.pure
        · rename_i hb
          refine Errs.err fun x t b' c hbc => ?_
          cases hbc
          exact ⟨absNone_iff.1 hb, rfl⟩
      · intro x t e h
        obtain ⟨h3, rfl⟩ := h m t rfl
        exact .marker (by simp [h1, h2]) h3
  · intro x bs e h
    cases h with
    | missing => exact FailsIn.noByte
    | heap hm h =>
      refine FailsIn.byte ?_
      simp only [List.mem_cons, List.not_mem_nil, or_false] at hm
      rcases hm with rfl | rfl
      · exact FailsIn.ite_pos rfl (FailsIn.bind1 (ffail HeapType.faults))
      · exact FailsIn.ite_neg (by decide) (FailsIn.ite_pos rfl (FailsIn.bind1 (ffail HeapType.faults)))
    | marker hm h =>
      simp only [List.mem_cons, List.not_mem_nil, or_false, not_or] at hm
      refine FailsIn.byte (FailsIn.ite_neg hm.1 (FailsIn.ite_neg hm.2 (FailsIn.bind1 (FailsIn.mapErr
        (FailsIn.withChain (FailsIn.byte ?_))))))
      rw [absNone_iff.2 h]
      exact FailsIn.err

theorem numMarker_iff {m : UInt8} : (∀ t, ¬ BValType [m] t) →
    m ≠ 0x7F ∧ m ≠ 0x7E ∧ m ≠ 0x7D ∧ m ≠ 0x7C ∧ m ≠ 0x7B := by
  intro h
  refine ⟨?_, ?_, ?_, ?_, ?_⟩ <;> rintro rfl
  · exact h _ .i32
  · exact h _ .i64
  · exact h _ .f32
  · exact h _ .f64
  · exact h _ .v128

theorem FRefType.not_val {x : End} {m : UInt8} {b : Bytes} {e : DecodeRefTypeError}
    (hf : FRefType x (m :: b) e) (hm : m ≠ 0x7F ∧ m ≠ 0x7E ∧ m ≠ 0x7D ∧ m ≠ 0x7C ∧ m ≠ 0x7B) :
    ∀ t, ¬ BValType [m] t := by
  intro t ht
  generalize hb : [m] = bs at ht
  cases ht with
  | ref h =>
    cases h with
    | ref h =>
      simp at hb
      rw [hb.2] at h
      exact BHeapType.nonempty h
    | refNull h =>
      simp at hb
      rw [hb.2] at h
      exact BHeapType.nonempty h
    | abs h =>
      subst hb
      cases hf with
      | heap hm' _ => cases h <;> simp at hm'
      | marker _ h' => exact h' _ h
  | _ => simp at hb; subst hb; simp at hm

theorem ValType.faults : Faults (ValType.decode : Dec R _ _) FValType := by
  refine Faults.mk ?_ ?_
  · refine Errs.byte (fun x => .missing) fun m => ?_
    refine Errs.ite (fun _ => Errs.pure) fun h1 => Errs.ite (fun _ => Errs.pure) fun h2 =>
      Errs.ite (fun _ => Errs.pure) fun h3 => Errs.ite (fun _ => Errs.pure) fun h4 =>
      Errs.ite (fun _ => Errs.pure) fun h5 => ?_
    exact Errs.last (Errs.mapErr (Errs.mono (Errs.withChain RefType.faults.errs)
      fun x t e h => .ref (FRefType.not_val h ⟨h1, h2, h3, h4, h5⟩) h))
  · intro x bs e h
    cases h with
    | missing => exact FailsIn.noByte
    | ref hm h =>
      obtain ⟨h1, h2, h3, h4, h5⟩ := numMarker_iff hm
      exact FailsIn.byte (FailsIn.ite_neg h1 (FailsIn.ite_neg h2 (FailsIn.ite_neg h3 (FailsIn.ite_neg h4
        (FailsIn.ite_neg h5 (FailsIn.bind1 (FailsIn.mapErr (FailsIn.withChain (RefType.faults.fails h)))))))))

theorem valTypes_faults : Faults (decodeList ValType.decode : Dec R _ _) (FList FValType BValType) :=
  list_faults ValType.sound (fun _ _ => ValType.runs) ValType.faults

theorem resultType_faults : Faults (decodeResultType : Dec R _ _) FResultType := by
  refine Faults.mk (ferr valTypes_faults) ?_
  rintro x bs e ⟨h⟩
  exact ffail valTypes_faults

theorem GlobalType.faults : Faults (GlobalType.decode : Dec R _ _) FGlobalType := by
  refine Faults.mk ?_ ?_
  · refine Errs.bind (ferr ValType.faults) (Sound.mapErr ValType.sound) fun t b ht => ?_
    refine Errs.byte (fun x => ?_) fun m => ?_
    · rw [List.append_nil]; exact .missing ht
    · split
      · exact Errs.pure
      · rename_i hm
        exact Errs.err fun x c => .mut ht (mutNone_iff.1 hm)
  · intro x bs e h
    cases h with
    | type h => exact FailsIn.bind1 (ffail ValType.faults)
    | missing h =>
      rw [← List.append_nil bs]
      exact FailsIn.bind2 (Runs.mapErr (ValType.runs h)) FailsIn.noByte
    | «mut» h hm =>
      refine FailsIn.bind2 (Runs.mapErr (ValType.runs h)) (FailsIn.byte ?_)
      rw [mutNone_iff.2 hm]
      exact FailsIn.err

theorem storageType_faults : Faults (decodeStorageType : Dec R _ _) FStorageType := by
  refine Faults.mk ?_ ?_
  · refine Errs.byte (fun x => .missing) fun m => ?_
    split
    · exact Errs.pure
    · rename_i hm
      exact Errs.last (Errs.mapErr (Errs.mono (Errs.withChain ValType.faults.errs)
        fun x t e h => .val (packNone_iff.1 hm) h))
  · intro x bs e h
    cases h with
    | missing => exact FailsIn.noByte
    | val hm h =>
      refine FailsIn.byte ?_
      rw [packNone_iff.2 hm]
      exact FailsIn.bind1 (FailsIn.mapErr (FailsIn.withChain (ValType.faults.fails h))
        (g := fun e => DecodeStorageTypeError.DecodeValTypeOrPackType _ e))

theorem fieldType_faults : Faults (decodeFieldType : Dec R _ _) FFieldType := by
  refine Faults.mk ?_ ?_
  · refine Errs.bind (ferr storageType_faults) (Sound.mapErr storageType_sound) fun t b ht => ?_
    refine Errs.byte (fun x => ?_) fun m => ?_
    · rw [List.append_nil]; exact .missing ht
    · split
      · exact Errs.pure
      · rename_i hm
        exact Errs.err fun x c => .mut ht (mutNone_iff.1 hm)
  · intro x bs e h
    cases h with
    | type h => exact FailsIn.bind1 (ffail storageType_faults)
    | missing h =>
      rw [← List.append_nil bs]
      exact FailsIn.bind2 (Runs.mapErr (storageType_runs h)) FailsIn.noByte
    | «mut» h hm =>
      refine FailsIn.bind2 (Runs.mapErr (storageType_runs h)) (FailsIn.byte ?_)
      rw [mutNone_iff.2 hm]
      exact FailsIn.err

theorem fieldTypes_faults : Faults (decodeList decodeFieldType : Dec R _ _) (FList FFieldType BFieldType) :=
  list_faults fieldType_sound (fun _ _ => fieldType_runs) fieldType_faults

theorem CompType.faults : Faults (CompType.decode : Dec R _ _) FCompType := by
  refine Faults.mk ?_ ?_
  · refine Errs.byte (fun x => .missing) fun m => ?_
    refine Errs.ite ?_ fun h1 => Errs.ite ?_ fun h2 => Errs.ite ?_ fun h3 => ?_
    · rintro rfl; exact Errs.last (ferr fieldType_faults)
    · rintro rfl; exact Errs.last (ferr fieldTypes_faults)
    · rintro rfl
      refine Errs.bind (ferr resultType_faults) (Sound.mapErr resultType_sound) fun l b hl => ?_
      exact Errs.last (Errs.mapErr (Errs.mono resultType_faults.errs fun x t e h => .results hl h))
    · exact Errs.err fun x t => .marker (by simp [h1, h2, h3])
  · intro x bs e h
    cases h with
    | missing => exact FailsIn.noByte
    | marker hm =>
      simp only [List.mem_cons, List.not_mem_nil, or_false, not_or] at hm
      exact FailsIn.byte (FailsIn.ite_neg hm.1 (FailsIn.ite_neg hm.2.1 (FailsIn.ite_neg hm.2.2 FailsIn.err)))
    | array h => exact FailsIn.byte (FailsIn.ite_pos rfl (FailsIn.bind1 (ffail fieldType_faults)))
    | «struct» h => exact FailsIn.byte (FailsIn.ite_neg (by decide) (FailsIn.ite_pos rfl
        (FailsIn.bind1 (ffail fieldTypes_faults))))
    | params h => exact FailsIn.byte (FailsIn.ite_neg (by decide) (FailsIn.ite_neg (by decide)
        (FailsIn.ite_pos rfl (FailsIn.bind1 (ffail resultType_faults)))))
    | results h1 h2 => exact FailsIn.byte (FailsIn.ite_neg (by decide) (FailsIn.ite_neg (by decide)
        (FailsIn.ite_pos rfl (FailsIn.bind2 (Runs.mapErr (resultType_runs h1))
          (FailsIn.bind1 (ffail resultType_faults))))))

theorem typeIdxs_faults : Faults (decodeList TypeIdx.decode : Dec R _ _) (FList FTypeIdx BTypeIdx) :=
  list_faults TypeIdx.sound (fun _ _ => TypeIdx.runs) TypeIdx.faults

theorem SubType.faults : Faults (SubType.decode : Dec R _ _) FSubType := by
  refine Faults.mk ?_ ?_
  · refine Errs.byte (fun x => .missing) fun m => ?_
    refine Errs.ite (fun hm => ?_) fun hm => ?_
    · have hm' : m ∈ [0x4F, 0x50] := by simpa using hm
      refine Errs.bind (ferr typeIdxs_faults) (Sound.mapErr (list_sound TypeIdx.sound)) fun l b hl => ?_
      exact Errs.last (Errs.mapErr (Errs.mono CompType.faults.errs fun x t e h => .comp hm' hl h))
    · have hm' : m ∉ [0x4F, 0x50] := by simpa using hm
      exact Errs.last (Errs.mapErr (Errs.mono (Errs.withChain CompType.faults.errs) fun x t e h => .short hm' h))
  · intro x bs e h
    cases h with
    | missing => exact FailsIn.noByte
    | supers hm h =>
      exact FailsIn.byte (FailsIn.ite_pos (by simpa using hm) (FailsIn.bind1 (ffail typeIdxs_faults)))
    | comp hm h1 h2 =>
      exact FailsIn.byte (FailsIn.ite_pos (by simpa using hm) (FailsIn.bind2 (Runs.mapErr (list_runs
        (fun _ _ => TypeIdx.runs) h1)) (FailsIn.bind1 (ffail CompType.faults))))
    | short hm h =>
      exact FailsIn.byte (FailsIn.ite_neg (by simpa using hm) (FailsIn.bind1 (FailsIn.mapErr
        (FailsIn.withChain (CompType.faults.fails h)))))

theorem subTypes_faults : Faults (decodeList SubType.decode : Dec R _ _) (FList FSubType BSubType) :=
  list_faults SubType.sound (fun _ _ => SubType.runs) SubType.faults

theorem RecType.faults : Faults (RecType.decode : Dec R _ _) FRecType := by
  refine Faults.mk ?_ ?_
  · refine Errs.byte (fun x => .missing) fun m => ?_
    refine Errs.ite ?_ fun hm => ?_
    · rintro rfl; exact Errs.last (ferr subTypes_faults)
    · exact Errs.last (Errs.mapErr (Errs.mono (Errs.withChain SubType.faults.errs) fun x t e h => .single hm h))
  · intro x bs e h
    cases h with
    | missing => exact FailsIn.noByte
    | group h => exact FailsIn.byte (FailsIn.ite_pos rfl (FailsIn.bind1 (ffail subTypes_faults)))
    | single hm h =>
      exact FailsIn.byte (FailsIn.ite_neg hm (FailsIn.bind1 (FailsIn.mapErr
        (FailsIn.withChain (SubType.faults.fails h)))))

theorem limitsRest_errs {hm : Bool} {a : AddrType} {F : End → Bytes → ParseLimitsError → Prop}
    (h1 : ∀ x b e, FU64 x b e → F x b (.ReadMinLimit e))
    (h2 : hm = true → ∀ x b n t e, BU64 b n → FU64 x t e → F x (b ++ t) (.ReadMaxLimit e)) :
    Errs (parseLimitsRest hm a : Dec R _ _) F := by
  refine Errs.bind (Errs.mapErr (Errs.mono u64_faults.errs h1)) (Sound.mapErr decodeU64_sound) fun n b hn => ?_
  refine Errs.ite (fun h => ?_) fun _ => Errs.pure
  exact Errs.last (Errs.mapErr (Errs.mono u64_faults.errs fun x t e ht => h2 h x b n t e hn ht))

theorem limits_faults : Faults (parseLimits : Dec R _ _) FLimits := by
  refine Faults.mk ?_ ?_
  · refine Errs.byte (fun x => .missing) fun m => ?_
    refine Errs.ite ?_ fun h1 => Errs.ite ?_ fun h2 => Errs.ite ?_ fun h3 => Errs.ite ?_ fun h4 => ?_
    · rintro rfl
      exact limitsRest_errs (fun x b e h => .min (by simp) h) (by simp)
    · rintro rfl
      exact limitsRest_errs (fun x b e h => .min (by simp) h) (fun _ x b n t e hb h => .max (by simp) hb h)
    · rintro rfl
      exact limitsRest_errs (fun x b e h => .min (by simp) h) (by simp)
    · rintro rfl
      exact limitsRest_errs (fun x b e h => .min (by simp) h) (fun _ x b n t e hb h => .max (by simp) hb h)
    · exact Errs.err fun x t => .flag (by simp [h1, h2, h3, h4])
  · intro x bs e h
    cases h with
    | missing => exact FailsIn.noByte
    | flag hm =>
      simp only [List.mem_cons, List.not_mem_nil, or_false, not_or] at hm
      exact FailsIn.byte (FailsIn.ite_neg hm.1 (FailsIn.ite_neg hm.2.1 (FailsIn.ite_neg hm.2.2.1
        (FailsIn.ite_neg hm.2.2.2 FailsIn.err))))
    | @min b e m hm h =>
      have key : ∀ hx a, FailsIn (R := R) (parseLimitsRest hx a) x b (.ReadMinLimit e) :=
        fun hx a => FailsIn.bind1 (ffail u64_faults)
      simp only [List.mem_cons, List.not_mem_nil, or_false] at hm
      refine FailsIn.byte ?_
      rcases hm with rfl | rfl | rfl | rfl <;> exact key _ _
    | @max b n c e m hm h1 h2 =>
      have key : ∀ a, FailsIn (R := R) (parseLimitsRest true a) x (b ++ c) (.ReadMaxLimit e) :=
        fun a => FailsIn.bind2 (Runs.mapErr (decodeU64_runs h1)) (FailsIn.ite_pos rfl
          (FailsIn.bind1 (ffail u64_faults)))
      simp only [List.mem_cons, List.not_mem_nil, or_false] at hm
      refine FailsIn.byte ?_
      rcases hm with rfl | rfl <;> exact key _

theorem memType_faults : Faults (parseMemType : Dec R _ _) FMemType := by
  refine Faults.mk (Errs.last (ferr limits_faults)) ?_
  rintro x bs e ⟨h⟩
  exact FailsIn.bind1 (ffail limits_faults)

theorem TableType.faults : Faults (TableType.decode : Dec R _ _) FTableType := by
  refine Faults.mk ?_ ?_
  · refine Errs.bind (ferr RefType.faults) (Sound.mapErr RefType.sound) fun t b ht => ?_
    exact Errs.last (Errs.mapErr (Errs.mono limits_faults.errs fun x t e h => .limits ht h))
  · intro x bs e h
    cases h with
    | type h => exact FailsIn.bind1 (ffail RefType.faults)
    | limits h1 h2 => exact FailsIn.bind2 (Runs.mapErr (RefType.runs h1)) (FailsIn.bind1 (ffail limits_faults))

theorem TagType.faults : Faults (TagType.decode : Dec R _ _) FTagType := by
  refine Faults.mk ?_ ?_
  · refine Errs.byte (fun x => .missing) fun m => ?_
    refine Errs.ite (fun hm => Errs.err fun x t => .marker hm) fun hm => ?_
    simp only [ne_eq, Decidable.not_not] at hm
    subst hm
    exact Errs.last (ferr TypeIdx.faults)
  · intro x bs e h
    cases h with
    | missing => exact FailsIn.noByte
    | marker hm => exact FailsIn.byte (FailsIn.ite_pos hm FailsIn.err)
    | type h => exact FailsIn.byte (FailsIn.ite_neg (by simp) (FailsIn.bind1 (ffail TypeIdx.faults)))

theorem ExternType.faults : Faults (ExternType.decode : Dec R _ _) FExternType := by
  refine Faults.mk ?_ ?_
  · refine Errs.byte (fun x => .missing) fun m => ?_
    refine Errs.ite ?_ fun h1 => Errs.ite ?_ fun h2 => Errs.ite ?_ fun h3 => Errs.ite ?_ fun h4 =>
      Errs.ite ?_ fun h5 => ?_
    · rintro rfl; exact Errs.last (ferr TypeIdx.faults)
    · rintro rfl; exact Errs.last (ferr TableType.faults)
    · rintro rfl; exact Errs.last (ferr memType_faults)
    · rintro rfl; exact Errs.last (ferr GlobalType.faults)
    · rintro rfl; exact Errs.last (ferr TagType.faults)
    · exact Errs.err fun x t => .marker (by simp [h1, h2, h3, h4, h5])
  · intro x bs e h
    cases h with
    | missing => exact FailsIn.noByte
    | marker hm =>
      simp only [List.mem_cons, List.not_mem_nil, or_false, not_or] at hm
      exact FailsIn.byte (FailsIn.ite_neg hm.1 (FailsIn.ite_neg hm.2.1 (FailsIn.ite_neg hm.2.2.1
        (FailsIn.ite_neg hm.2.2.2.1 (FailsIn.ite_neg hm.2.2.2.2 FailsIn.err)))))
    | func h => exact FailsIn.byte (FailsIn.ite_pos rfl (FailsIn.bind1 (ffail TypeIdx.faults)))
    | table h => exact FailsIn.byte (FailsIn.ite_neg (by decide) (FailsIn.ite_pos rfl
        (FailsIn.bind1 (ffail TableType.faults))))
    | mem h => exact FailsIn.byte (FailsIn.ite_neg (by decide) (FailsIn.ite_neg (by decide)
        (FailsIn.ite_pos rfl (FailsIn.bind1 (ffail memType_faults)))))
    | global h => exact FailsIn.byte (FailsIn.ite_neg (by decide) (FailsIn.ite_neg (by decide)
        (FailsIn.ite_neg (by decide) (FailsIn.ite_pos rfl (FailsIn.bind1 (ffail GlobalType.faults))))))
    | tag h => exact FailsIn.byte (FailsIn.ite_neg (by decide) (FailsIn.ite_neg (by decide)
        (FailsIn.ite_neg (by decide) (FailsIn.ite_neg (by decide) (FailsIn.ite_pos rfl
        (FailsIn.bind1 (ffail TagType.faults)))))))

end Wadec
