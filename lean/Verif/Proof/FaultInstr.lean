import Verif.Proof.FaultTypes
import Verif.Proof.Context

/-! C55: the errors of the immediates of instructions. -/

namespace Wadec

open LawfulRead Spec

variable {R : Type} [LawfulRead R]

theorem Memarg.faults : Faults (Memarg.decode : Dec R _ _) FMemarg := by
  refine Faults.mk ?_ ?_
  · refine Errs.bind (ferr u32_faults) (Sound.mapErr decodeU32_sound) fun n b hn => ?_
    refine Errs.ite (fun hlt => ?_) fun hge => Errs.ite (fun hlt => ?_) fun hge2 => Errs.err fun x t => ?_
    · have hlt : n.toNat < 64 := by simpa [UInt32.lt_iff_toNat_lt] using hlt
      exact Errs.last (Errs.mapErr (Errs.mono u64_faults.errs fun x t e h => .offset hn hlt h))
    · have hge : 64 ≤ n.toNat := by simpa [UInt32.lt_iff_toNat_lt] using hge
      have hlt : n.toNat < 128 := by simpa [UInt32.lt_iff_toNat_lt] using hlt
      refine Errs.bind (Errs.mapErr (Errs.mono MemIdx.faults.errs fun x t e h => .mem hn hge hlt h))
        (Sound.mapErr MemIdx.sound) fun i c hi => ?_
      exact Errs.last (Errs.mapErr (Errs.mono u64_faults.errs fun x t e h => .offset' hn hge hlt hi h))
    · have hge2 : 128 ≤ n.toNat := by simpa [UInt32.lt_iff_toNat_lt] using hge2
      exact .flags hn hge2
  · intro x bs e h
    cases h with
    | align h => exact FailsIn.bind1 (ffail u32_faults)
    | flags h1 h2 =>
      refine FailsIn.bind2 (Runs.mapErr (decodeU32_runs h1)) ?_
      refine FailsIn.ite_neg ?_ (FailsIn.ite_neg ?_ FailsIn.err)
      · simp [UInt32.lt_iff_toNat_lt]; omega
      · simp [UInt32.lt_iff_toNat_lt]; omega
    | mem h1 h2 h3 h4 =>
      refine FailsIn.bind2 (Runs.mapErr (decodeU32_runs h1)) ?_
      refine FailsIn.ite_neg ?_ (FailsIn.ite_pos ?_ (FailsIn.bind1 (ffail MemIdx.faults)))
      · simp [UInt32.lt_iff_toNat_lt]; omega
      · simp [UInt32.lt_iff_toNat_lt]; omega
    | offset h1 h2 h3 =>
      refine FailsIn.bind2 (Runs.mapErr (decodeU32_runs h1)) ?_
      refine FailsIn.ite_pos ?_ (FailsIn.bind1 (ffail u64_faults))
      simp [UInt32.lt_iff_toNat_lt]; omega
    | offset' h1 h2 h3 h4 h5 =>
      refine FailsIn.bind2 (Runs.mapErr (decodeU32_runs h1)) ?_
      refine FailsIn.ite_neg ?_ (FailsIn.ite_pos ?_ (FailsIn.bind2 (Runs.mapErr (MemIdx.runs h4))
        (FailsIn.bind1 (ffail u64_faults))))
      · simp [UInt32.lt_iff_toNat_lt]; omega
      · simp [UInt32.lt_iff_toNat_lt]; omega

theorem LaneIdx.faults : Faults (LaneIdx.decode : Dec R _ _) FLaneIdx := by
  refine Faults.mk (Errs.last (Errs.mapErr (Errs.readByte fun x => .missing))) ?_
  rintro x bs e ⟨⟩
  exact FailsIn.noByte

theorem Catch.faults : Faults (Catch.decode : Dec R _ _) FCatch := by
  refine Faults.mk ?_ ?_
  · refine Errs.byte (fun x => .missing) fun m => ?_
    refine Errs.ite ?_ fun h0 => Errs.ite ?_ fun h1 => Errs.ite ?_ fun h2 => Errs.ite ?_ fun h3 =>
      Errs.err fun x t => .marker (by simp [*])
    · rintro rfl
      exact Errs.bind (Errs.mapErr (Errs.mono TagIdx.faults.errs fun x t e h => .tag (by simp) h))
        (Sound.mapErr TagIdx.sound) fun i b hi =>
          Errs.last (Errs.mapErr (Errs.mono LabelIdx.faults.errs fun x t e h => .label (by simp) hi h))
    · rintro rfl
      exact Errs.bind (Errs.mapErr (Errs.mono TagIdx.faults.errs fun x t e h => .tag (by simp) h))
        (Sound.mapErr TagIdx.sound) fun i b hi =>
          Errs.last (Errs.mapErr (Errs.mono LabelIdx.faults.errs fun x t e h => .label (by simp) hi h))
    · rintro rfl
      exact Errs.last (Errs.mapErr (Errs.mono LabelIdx.faults.errs fun x t e h => .labelAll (by simp) h))
    · rintro rfl
      exact Errs.last (Errs.mapErr (Errs.mono LabelIdx.faults.errs fun x t e h => .labelAll (by simp) h))
  · intro x bs e h
    cases h with
    | missing => exact FailsIn.noByte
    | marker h =>
      simp only [List.mem_cons, List.not_mem_nil, or_false, not_or] at h
      exact FailsIn.byte (FailsIn.ite_neg h.1 (FailsIn.ite_neg h.2.1 (FailsIn.ite_neg h.2.2.1
        (FailsIn.ite_neg h.2.2.2 FailsIn.err))))
    | tag h1 h2 =>
      refine FailsIn.byte ?_
      simp only [List.mem_cons, List.not_mem_nil, or_false] at h1
      rcases h1 with rfl | rfl
      · exact FailsIn.ite_pos (by decide) (FailsIn.bind1 (ffail TagIdx.faults))
      · exact FailsIn.ite_neg (by decide) (FailsIn.ite_pos (by decide) (FailsIn.bind1 (ffail TagIdx.faults)))
    | label h1 h2 h3 =>
      refine FailsIn.byte ?_
      simp only [List.mem_cons, List.not_mem_nil, or_false] at h1
      rcases h1 with rfl | rfl
      · exact FailsIn.ite_pos (by decide) (FailsIn.bind2 (Runs.mapErr (TagIdx.runs h2))
          (FailsIn.bind1 (ffail LabelIdx.faults)))
      · exact FailsIn.ite_neg (by decide) (FailsIn.ite_pos (by decide)
          (FailsIn.bind2 (Runs.mapErr (TagIdx.runs h2)) (FailsIn.bind1 (ffail LabelIdx.faults))))
    | labelAll h1 h2 =>
      refine FailsIn.byte ?_
      simp only [List.mem_cons, List.not_mem_nil, or_false] at h1
      rcases h1 with rfl | rfl
      · exact FailsIn.ite_neg (by decide) (FailsIn.ite_neg (by decide) (FailsIn.ite_pos (by decide)
          (FailsIn.bind1 (ffail LabelIdx.faults))))
      · exact FailsIn.ite_neg (by decide) (FailsIn.ite_neg (by decide) (FailsIn.ite_neg (by decide)
          (FailsIn.ite_pos (by decide) (FailsIn.bind1 (ffail LabelIdx.faults)))))

theorem catches_faults : Faults (decodeList Catch.decode : Dec R _ _) (FList FCatch BCatch) :=
  list_faults Catch.sound (fun _ _ => Catch.runs) Catch.faults

/-! ### Block types -/

theorem blockTypeIndex_errs : Errs (blockTypeIndex : Dec R _ _) (fun x bs e =>
    (∃ e', FS33 x bs e' ∧ e = .DecodeIndex e') ∨
    ∃ b t i, bs = b ++ t ∧ BS33 b i ∧ i.toInt < 0 ∧ e = .NegativeTypeIndex i) := by
  refine Errs.bind (Errs.mapErr (Errs.mono s33_faults.errs fun x t e h => .inl ⟨e, h, rfl⟩))
    (Sound.mapErr decodeS33_sound) fun i b hi => ?_
  refine Errs.ite (fun hn => Errs.err fun x t => .inr ⟨b, t, i, rfl, hi, hn, rfl⟩) fun hn => ?_
  refine Errs.last ?_
  unfold i64ToU32
  exact Errs.ite (fun _ => Errs.pure) fun _ => Errs.panic

theorem BValType.two {m c : UInt8} {b : Bytes} {t : ValType} (h : BValType (m :: c :: b) t) :
    m = 0x63 ∨ m = 0x64 := by
  generalize hb : m :: c :: b = bs at h
  cases h with
  | ref h =>
    cases h with
    | abs h => obtain ⟨_, h⟩ := BAbsHeapType.single h; subst hb; cases h
    | _ => cases hb; simp
  | _ => cases hb

theorem notVal_of {m : UInt8} (h1 : m ∉ [0x63, 0x64]) (h2 : ∀ t, ¬ BValType [m] t) : NotVal m := by
  rcases byte_classes m with h | ⟨t, h⟩ | rfl | rfl
  · exact h
  · exact absurd h (h2 t)
  · simp at h1
  · simp at h1

theorem NotVal.not_val {m : UInt8} {b : Bytes} {t : ValType} (h : NotVal m) : ¬ BValType (m :: b) t := by
  intro ht
  generalize hb : m :: b = bs at ht
  cases ht with
  | ref h =>
    cases h with
    | abs h => cases h <;> cases hb <;> revert h <;> decide
    | _ => cases hb; revert h; decide
  | _ => cases hb; revert h; decide

theorem BValType.small {m : UInt8} {t : ValType} (h : BValType [m] t) : m.toNat < 128 := by
  generalize hb : [m] = bs at h
  cases h with
  | ref h =>
    cases h with
    | abs h => cases h <;> cases hb <;> decide
    | _ => cases hb; decide
  | _ => cases hb; decide

theorem BlockType.faults : Faults (BlockType.decode : Dec R _ _) FBlockType := by
  refine Faults.mk ?_ ?_
  · refine Errs.byte (fun x => .missing) fun m => ?_
    refine Errs.ite (fun _ => Errs.pure) fun h40 => ?_
    refine Errs.mono (Errs.withChain (F := fun x bs e => ∀ t, bs = m :: t → FBlockType x bs e) ?_)
      (fun x t e h => h t rfl)
    intro r e r' heq t ht
    change blockInner m r = _ at heq
    simp only [blockInner, Dec.orElseDiscard] at heq
    rcases byte_classes m with hm | ⟨ty, hm⟩ | hm
    · obtain ⟨e1, r1, h1, h2⟩ := ValType.failsAt hm r t ht
      have hav := adv_avail h2
      have hfin := adv_fin h2
      rw [ht] at hav
      have hav : avail r1 = t := by simpa using hav.symm
      rw [h1] at heq
      simp only at heq
      have := Errs.withChain (b := m) blockTypeIndex_errs r1 e r' heq
      rw [hav, hfin] at this
      rw [ht]
      rcases this with ⟨e', h3, rfl⟩ | ⟨b, t', i, h3, h4, h5, rfl⟩
      · exact .index h3
      · match b, h4, h3 with
        | [], h4, _ => exact absurd h4 BS.nonempty
        | c :: b, h4, h3 =>
          cases h3
          refine .negative h4 ?_ (fun _ => hm.not_val) h5
          have : m ∉ [0x63, 0x64] := by
            rintro h; simp at h; rcases h with rfl | rfl <;> revert hm <;> decide
          simp at this
          simp [h40, this]
    · obtain ⟨r1, h1, _⟩ := ValType.runs hm r t (by simpa using ht)
      rw [h1] at heq
      cases heq
    · rcases hv : ValType.decode r with ⟨res, r1⟩
      rw [hv] at heq
      cases res with
      | err e1 =>
        simp only at heq
        have hf := (ValType.faults (R := _) r e1).1 ⟨r1, hv⟩
        rw [ht] at hf ⊢
        obtain ⟨e2, hh⟩ : ∃ e2, FHeapType (fin r) t e2 := by
          generalize hb : m :: t = bs at hf
          cases hf with
          | missing => cases hb
          | ref h1 h2 =>
            cases hb
            generalize hb : m :: t = bs at h2
            cases h2 with
            | missing => cases hb
            | heap h3 h4 => cases hb; exact ⟨_, h4⟩
            | marker h3 h4 => cases hb; simp at h3; rcases hm with rfl | rfl <;> simp at h3
        rcases hm with rfl | rfl
        · obtain ⟨r2, h2⟩ := Fails.withChain (bs := []) blockTypeIndex_fails63 r1 (avail r1) (by simp)
          rw [h2] at heq
          cases heq
          exact .refNull hh
        · obtain ⟨r2, h2⟩ := Fails.withChain (bs := []) blockTypeIndex_fails64 r1 (avail r1) (by simp)
          rw [h2] at heq
          cases heq
          exact .ref hh
      | _ => cases heq
  · have main : ∀ (m : UInt8) (x : End) (t : Bytes) (e : BlockTypeError), m ≠ 0x40 →
        (∀ (R : Type) [LawfulRead R], FailsIn (R := R) (blockInner m) x (m :: t) e) →
        FailsIn (R := R) BlockType.decode x (m :: t) e := by
      intro m x t e hm h
      exact FailsIn.byte (FailsIn.ite_neg hm (FailsIn.withChain (h _)))
    have val : ∀ (m : UInt8) (x : End) (t : Bytes) (e : DecodeHeapTypeError), m = 0x63 ∨ m = 0x64 →
        FHeapType x t e → ∀ (R : Type) [LawfulRead R], FailsIn (R := R) ValType.decode x (m :: t)
          (.DecodeRefType (.DecodeHeapType e)) := by
      intro m x t e hm h R _
      refine ValType.faults.fails (.ref (fun ty hty => ?_) (.heap (by simpa using hm) h))
      generalize hb : [m] = bs at hty
      cases hty with
      | ref h => 
        cases h with
        | abs h => rcases hm with rfl | rfl <;> cases h <;> cases hb
        | ref h => cases hb; exact BHeapType.nonempty h
        | refNull h => cases hb; exact BHeapType.nonempty h
      | _ => cases hb; rcases hm with h | h <;> cases h
    have idx : ∀ (m : UInt8) (x : End) (t : Bytes) (e : BlockTypeError), m ≠ 0x40 → NotVal m →
        (∀ (R : Type) [LawfulRead R], FailsIn (R := R) blockTypeIndex x (m :: t) e) →
        FailsIn (R := R) BlockType.decode x (m :: t) e := by
      intro m x t e h40 hm h
      refine main m x t e h40 fun R _ r ha hx => ?_
      obtain ⟨e1, r1, h1, h2⟩ := ValType.failsAt hm r t ha
      have hav := adv_avail h2
      rw [ha] at hav
      obtain ⟨r2, h3⟩ := FailsIn.withChain (h _) r1 (by simpa using hav.symm) (by rw [adv_fin h2, hx])
      exact ⟨r2, by simp only [blockInner, Dec.orElseDiscard, h1, h3]⟩
    intro x bs e h
    cases h with
    | missing => exact FailsIn.noByte
    | refNull h =>
      refine main _ _ _ _ (by decide) fun R _ r ha hx => ?_
      obtain ⟨r1, h1⟩ := val _ _ _ _ (.inl rfl) h R r ha hx
      obtain ⟨r2, h2⟩ := Fails.withChain (bs := []) blockTypeIndex_fails63 r1 (avail r1) (by simp)
      exact ⟨r2, by simp only [blockInner, Dec.orElseDiscard, h1, h2]⟩
    | ref h =>
      refine main _ _ _ _ (by decide) fun R _ r ha hx => ?_
      obtain ⟨r1, h1⟩ := val _ _ _ _ (.inr rfl) h R r ha hx
      obtain ⟨r2, h2⟩ := Fails.withChain (bs := []) blockTypeIndex_fails64 r1 (avail r1) (by simp)
      exact ⟨r2, by simp only [blockInner, Dec.orElseDiscard, h1, h2]⟩
    | @index b e m h =>
      refine idx _ _ _ _ ?_ (notVal_of ?_ ?_) fun R _ =>
        FailsIn.bind1 (FailsIn.mapErr (s33_faults.fails h))
      · rintro rfl; exact not_fs33 (by decide) h
      · intro hm
        simp only [List.mem_cons, List.not_mem_nil, or_false] at hm
        rcases hm with rfl | rfl <;> exact not_fs33 (by decide) h
      · intro t ht; exact not_fs33 (BValType.small ht) h
    | @negative b i t m h1 h2 h3 h4 =>
      simp only [List.mem_cons, List.not_mem_nil, or_false, not_or] at h2
      refine idx _ _ _ _ h2.1 (notVal_of (by simp [h2]) ?_) fun R _ =>
        FailsIn.bind2 (b1 := m :: b) (Runs.mapErr (decodeS33_runs h1)) (FailsIn.ite_pos h4 FailsIn.err)
      intro t ht
      obtain rfl := BS33.one (BValType.small ht) h1
      exact h3 t ht

end Wadec
