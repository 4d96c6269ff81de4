import Verif.Source.Types
import Verif.Source.AgreeLeaf

/-! The translated functions of src/decode/types (Source/Types.lean) are the functions of the model. -/

set_option linter.unusedSectionVars false

namespace Wadec.Source

variable {R : Type} [Read R] {ε ε' α β : Type}

/-! ### `attempt`, `from_marker`, `withChain` -/

theorem attempt_pure (a : α) : (attempt (pure a : Dec R ε α) : Dec R ε' _) = pure (.ok a) := rfl
theorem attempt_err (e : ε) : (attempt (Dec.err e : Dec R ε α) : Dec R ε' _) = pure (.error e) := rfl

/-- `?` on an error of the right type -/
theorem q_self (d : Dec R ε α) : (q d : Dec R ε α) = d := mapErr_id d

theorem from_marker_eq (T : Type) {Err : Type} [FromMarkerByte T Err] [From UInt8 Err] (b : UInt8) :
    (Source.from_marker T b : Dec R Err T) = match fromMarker (FromMarkerByte.markers (α := T)) b with
      | some n => pure n
      | none => Dec.err (From.from_ b) := rfl

theorem withChain_bind {b : UInt8} {d : Dec (Chain R) ε α} {k : α → Dec (Chain R) ε β} {k' : α → Dec R ε β}
    (h : ∀ a, ∃ res, (∀ c, k a c = (res, c)) ∧ (∀ r, k' a r = (res, r))) :
    Dec.withChain b (d >>= k) = (Dec.withChain b d >>= k') := by
  funext r
  simp only [Dec.withChain, bind_eq, Dec.bind]
  rcases d ⟨[b], r⟩ with ⟨res, c⟩
  cases res with
  | ok a =>
    obtain ⟨res, h1, h2⟩ := h a
    simp only [h1, h2]
  | _ => rfl

variable [Fits R]

/-! ### heaptype.rs, reftype.rs, valtype.rs -/

theorem u32_try (x : Int64) : (unwrap_ok (tryFrom (β := UInt32) x) : Dec R ε UInt32) = i64ToU32 x := by
  simp only [tryFrom, TryFrom.tryFrom_, i64ToU32]
  by_cases h : 0 ≤ x.toInt ∧ x.toInt ≤ 4294967295
  · rw [if_pos (show 0 ≤ x.toInt ∧ x.toInt < 4294967296 by omega)]; simp only [if_pos h]; rfl
  · rw [if_neg (show ¬ (0 ≤ x.toInt ∧ x.toInt < 4294967296) by omega)]; simp only [if_neg h]; rfl

theorem lt_zero (x : Int64) : x < 0 ↔ x.toInt < 0 := by
  rw [Int64.lt_iff_toInt_lt]; rfl

theorem heapType_eq : (Source.HeapType.decode : Dec R _ _) = Wadec.HeapType.decode := by
  unfold Source.HeapType.decode Wadec.HeapType.decode
  rw [read_byte_eq]
  refine bind_congr' fun b => ?_
  rw [from_marker_eq, show FromMarkerByte.markers (α := AbsHeapType) = AbsHeapType.markers from rfl]
  cases fromMarker AbsHeapType.markers b with
  | some t => rfl
  | none =>
    simp only [attempt_err, dec_pure_bind]
    rw [decode_s33_eq, ← withChain_mapErr]
    refine withChain_bind fun x => ?_
    simp only [u32_try, lt_zero]
    by_cases h : x.toInt < 0
    · simp only [if_pos h]
      exact ⟨_, fun c => rfl, fun r => rfl⟩
    · simp only [if_neg h, i64ToU32]
      by_cases h : 0 ≤ x.toInt ∧ x.toInt < 4294967296
      · simp only [if_pos h]
        exact ⟨_, fun c => rfl, fun r => rfl⟩
      · simp only [if_neg h]
        exact ⟨_, fun c => rfl, fun r => rfl⟩

theorem absHeapType_eq : (Source.AbsHeapType.decode : Dec R _ _) = Wadec.AbsHeapType.decode := by
  unfold Source.AbsHeapType.decode Wadec.AbsHeapType.decode
  rw [read_byte_eq]
  refine bind_congr' fun b => ?_
  rw [from_marker_eq, show FromMarkerByte.markers (α := AbsHeapType) = AbsHeapType.markers from rfl]
  cases fromMarker AbsHeapType.markers b <;> rfl

theorem refType_eq : (Source.RefType.decode : Dec R _ _) = Wadec.RefType.decode := by
  unfold Source.RefType.decode Wadec.RefType.decode
  rw [read_byte_eq, heapType_eq]
  refine bind_congr' fun b => ?_
  simp only [q_eq, absHeapType_eq, withChain_mapErr]
  rfl

theorem valType_eq : (Source.ValType.decode : Dec R _ _) = Wadec.ValType.decode := by
  unfold Source.ValType.decode Wadec.ValType.decode
  rw [read_byte_eq]
  refine bind_congr' fun b => ?_
  simp only [q_eq, refType_eq, withChain_mapErr, withChain_bind_pure]
  rfl

theorem decode_result_type_eq : (decode_result_type : Dec R _ _) = decodeResultType := by
  unfold decode_result_type decodeResultType
  rw [q_eq, decode_list_q, valType_eq]
  exact dec_bind_pure _

theorem globalType_eq : (Source.GlobalType.decode : Dec R _ _) = Wadec.GlobalType.decode := by
  unfold Source.GlobalType.decode Wadec.GlobalType.decode
  rw [valType_eq]
  refine bind_congr' fun v => ?_
  rw [read_byte_eq, q_self]
  refine bind_congr' fun b => ?_
  rw [from_marker_eq, show FromMarkerByte.markers (α := Mut) = Mut.markers from rfl]
  cases fromMarker Mut.markers b <;> rfl

/-! ### comptype.rs, rectype.rs -/

theorem decode_storagetype_eq : (decode_storagetype : Dec R _ _) = decodeStorageType := by
  unfold decode_storagetype decodeStorageType
  rw [read_byte_eq, q_self]
  refine bind_congr' fun b => ?_
  rw [from_marker_eq, show FromMarkerByte.markers (α := PackType) = PackType.markers from rfl]
  cases fromMarker PackType.markers b with
  | some t => rfl
  | none =>
    simp only [attempt_err, dec_pure_bind]
    rw [← withChain_mapErr, ← withChain_bind_pure, ← valType_eq]
    congr 1
    funext c
    simp only [bind_eq, Dec.bind, attempt, Dec.mapErr]
    rcases Source.ValType.decode c with ⟨res, c'⟩
    cases res <;> rfl

theorem decode_fieldtype_eq : (decode_fieldtype : Dec R _ _) = decodeFieldType := by
  unfold decode_fieldtype decodeFieldType
  rw [decode_storagetype_eq]
  refine bind_congr' fun v => ?_
  rw [read_byte_eq, q_self]
  refine bind_congr' fun b => ?_
  rw [from_marker_eq, show FromMarkerByte.markers (α := Mut) = Mut.markers from rfl]
  cases fromMarker Mut.markers b <;> rfl

theorem compType_eq : (Source.CompType.decode : Dec R _ _) = Wadec.CompType.decode := by
  unfold Source.CompType.decode Wadec.CompType.decode
  rw [read_byte_eq, q_self]
  refine bind_congr' fun b => ?_
  rw [decode_fieldtype_eq, decode_result_type_eq, q_self, q_self]
  refine ite_congr' Iff.rfl (fun _ => rfl) fun _ => ite_congr' Iff.rfl (fun _ => ?_) fun _ => rfl
  exact decode_list_q (R := R) _ _ _

theorem decide_eq_beq (a b : UInt8) : decide (a = b) = (a == b) := by
  cases h : decide (a = b) <;> simp_all

theorem subType_eq : (Source.SubType.decode : Dec R _ _) = Wadec.SubType.decode := by
  unfold Source.SubType.decode Wadec.SubType.decode
  rw [read_byte_eq]
  refine bind_congr' fun b => ?_
  rw [typeIdx_eq, compType_eq]
  refine ite_congr' Iff.rfl (fun _ => ?_) fun _ => ?_
  · simp only [q_eq, decide_eq_beq]
    exact decode_list_q (R := R) _ _ _
  · simp only [q_eq, compType_eq, withChain_mapErr, withChain_bind_pure]
    rfl

theorem recType_eq : (Source.RecType.decode : Dec R _ _) = Wadec.RecType.decode := by
  unfold Source.RecType.decode Wadec.RecType.decode
  rw [read_byte_eq]
  refine bind_congr' fun b => ?_
  refine ite_congr' Iff.rfl (fun _ => ?_) fun _ => ?_
  · simp only [q_eq, subType_eq]
    exact decode_list_q (R := R) _ _ _
  · simp only [q_eq, subType_eq, withChain_mapErr, withChain_bind_pure]
    rfl

/-! ### limits.rs, memtype.rs, tabletype.rs, tagtype.rs, externtype.rs -/

theorem parse_limits_eq : (parse_limits : Dec R _ _) = parseLimits := by
  unfold parse_limits parseLimits
  rw [read_byte_eq, q_self]
  simp only [decode_u64_eq, q_self]
  refine bind_congr' fun b => ?_
  simp only [dec_pure_bind, err_bind, parseLimitsRest, if_true, if_false, Bool.false_eq_true]

theorem parse_memtype_eq : (parse_memtype : Dec R _ _) = parseMemType := by
  unfold parse_memtype parseMemType; rw [parse_limits_eq]; rfl

theorem tableType_eq : (Source.TableType.decode : Dec R _ _) = Wadec.TableType.decode := by
  unfold Source.TableType.decode Wadec.TableType.decode; rw [refType_eq, parse_limits_eq]; rfl

theorem tagType_eq : (Source.TagType.decode : Dec R _ _) = Wadec.TagType.decode := by
  unfold Source.TagType.decode Wadec.TagType.decode
  rw [read_byte_eq, typeIdx_eq]
  refine bind_congr' fun b => ?_
  exact ite_congr' Iff.rfl (fun _ => rfl) fun _ => rfl

theorem externType_eq : (Source.ExternType.decode : Dec R _ _) = Wadec.ExternType.decode := by
  unfold Source.ExternType.decode Wadec.ExternType.decode
  rw [read_byte_eq, typeIdx_eq, tableType_eq, parse_memtype_eq, globalType_eq, tagType_eq]
  rfl

end Wadec.Source
