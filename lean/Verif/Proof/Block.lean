import Verif.Proof.Types
import Verif.Proof.LebErr
import Verif.Model.Instructions
import Verif.Spec.Instr

/-! Immediates of instructions: memory arguments, lane indices, block types, catch clauses,
cast operators. -/

namespace Wadec

open LawfulRead Spec

variable {R S : Type} [LawfulRead R] [LawfulRead S] {L : Nat}

/-! ### `memarg`, `laneidx` -/

theorem Memarg.sound : Sound (R := R) Memarg.decode BMemarg := by
  refine Sound.bind (Sound.mapErr decodeU32_sound) fun n b1 hn => ?_
  refine Sound.ite (fun hlt => ?_) fun hge => Sound.ite (fun hlt => ?_) fun _ => Sound.err
  · refine Sound.bind (Sound.mapErr decodeU64_sound) fun m b2 hm => Sound.pure ?_
    have : n.toNat < 64 := by simpa [UInt32.lt_iff_toNat_lt] using hlt
    simpa using BMemarg.mem0 hn this hm
  · refine Sound.bind (Sound.mapErr MemIdx.sound) fun x b2 hx => ?_
    refine Sound.bind (Sound.mapErr decodeU64_sound) fun m b3 hm => Sound.pure ?_
    have h1 : ¬ n.toNat < 64 := by simpa [UInt32.lt_iff_toNat_lt] using hge
    have h2 : n.toNat < 128 := by simpa [UInt32.lt_iff_toNat_lt] using hlt
    have h3 : (n - 64).toNat = n.toNat - 64 := by
      rw [UInt32.toNat_sub_of_le _ _ (by rw [UInt32.le_iff_toNat_le]; simp; omega)]; rfl
    simpa using BMemarg.memx hn (by omega) h2 h3 hx hm

theorem Memarg.runs {bs : Bytes} {m : Memarg} (h : BMemarg bs m) :
    Runs (R := R) Memarg.decode bs m := by
  cases h with
  | mem0 h1 h2 h3 =>
    refine Runs.bind (Runs.mapErr (decodeU32_runs h1)) ?_
    refine Runs.ite_pos (by simpa [UInt32.lt_iff_toNat_lt] using h2) ?_
    exact Runs.bind_pure (Runs.mapErr (decodeU64_runs h3))
  | memx h1 h2 h3 h4 h5 h6 =>
    rename_i n a x m
    refine Runs.bind (Runs.mapErr (decodeU32_runs h1)) ?_
    refine Runs.ite_neg (by simpa [UInt32.lt_iff_toNat_lt] using h2)
      (Runs.ite_pos (by simpa [UInt32.lt_iff_toNat_lt] using h3) ?_)
    refine Runs.bind (Runs.mapErr (MemIdx.runs h5)) ?_
    have : n - 64 = a := by
      rw [← UInt32.toNat_inj, UInt32.toNat_sub_of_le _ _ (by rw [UInt32.le_iff_toNat_le]; simpa using h2), h4]
      rfl
    subst this
    exact Runs.bind_pure (Runs.mapErr (decodeU64_runs h6))

theorem Memarg.g : G 1 L (Memarg.decode : Dec R _ _) (Memarg.decode : Dec S _ _) := by
  refine G.bind (gmap decodeU32_g) (j := 0) (fun b => ?_) (by omega)
  refine G.ite (fun _ => ?_) fun _ => G.ite (fun _ => ?_) fun _ => G.err
  · exact G.bind0 (G.mono (gmap decodeU64_g) (by omega)) fun _ => G.pure
  · exact G.bind0 (G.mono (gmap MemIdx.g) (by omega)) fun _ =>
      G.bind0 (G.mono (gmap decodeU64_g) (by omega)) fun _ => G.pure

theorem LaneIdx.sound : Sound (R := R) LaneIdx.decode BLaneIdx :=
  Sound.bind (Sound.mapErr Sound.readByte) fun b _ h => Sound.pure (by simp [BLaneIdx, h])

theorem LaneIdx.runs {bs : Bytes} {l : LaneIdx} (h : BLaneIdx bs l) :
    Runs (R := R) LaneIdx.decode bs l := by
  cases h
  exact Runs.bind_pure (f := LaneIdx.mk) (Runs.mapErr Runs.readByte)

theorem LaneIdx.g : G 1 L (LaneIdx.decode : Dec R _ _) (LaneIdx.decode : Dec S _ _) :=
  G.bind (gmap G.readByte) (j := 0) (fun _ => G.pure) (by omega)

/-! ### Block types -/

theorem blockTypeIndex_sound :
    Sound (R := R) blockTypeIndex (fun bs t => ∃ x, t = .I x ∧ BS 33 bs x.toNat) := by
  refine Sound.bind (Sound.mapErr decodeS33_sound) fun x b hx => ?_
  refine Sound.ite (fun _ => Sound.err) fun _ => ?_
  refine Sound.bind (i64ToU32_sound hx) ?_
  rintro v _ ⟨rfl, hv⟩
  exact Sound.pure ⟨v, rfl, by simpa using hv⟩

theorem blockTypeIndex_runs {bs : Bytes} {x : UInt32} (h : BS 33 bs x.toNat) :
    Runs (R := R) blockTypeIndex bs (.I x) := by
  obtain ⟨h1, h2⟩ := BS33.ofU32 h
  rw [← List.append_nil bs]
  refine Runs.bind (Runs.mapErr (decodeS33_runs h1)) ?_
  refine Runs.ite_neg (by omega) ?_
  exact Runs.bind_pure (i64ToU32_runs h2)

theorem blockTypeIndex_g :
    G 1 L (blockTypeIndex : Dec R _ _) (blockTypeIndex : Dec S _ _) := by
  refine G.bindP (k := 1) (j := 0) (Sound.post (Sound.mapErr decodeS33_sound))
    (G.mapErr decodeS33_g (fun _ => rfl) (fun e h => by cases e <;> exact h)) (fun _ x hx => ?_) (by omega)
  obtain ⟨bs, hx⟩ := hx
  refine G.ite (fun _ => G.err) fun hn => ?_
  exact G.bind0 (i64ToU32_g hx hn) fun _ => G.pure

/-- A first byte for which `ValType::decode` neither succeeds nor looks further. -/
def NotVal (b : UInt8) : Prop :=
  b ∉ [0x7F, 0x7E, 0x7D, 0x7C, 0x7B, 0x63, 0x64, 0x69, 0x6A, 0x6B, 0x6C, 0x6D, 0x6E, 0x6F, 0x70,
    0x71, 0x72, 0x73, (0x74 : UInt8)]

instance (b : UInt8) : Decidable (NotVal b) := by unfold NotVal; infer_instance

theorem fromMarker_notVal {b : UInt8} (hb : NotVal b) : fromMarker AbsHeapType.markers b = none := by
  refine fromMarker_none ?_
  intro t ht
  simp only [AbsHeapType.markers, List.mem_cons, Prod.mk.injEq, List.not_mem_nil, or_false] at ht
  rcases ht with h | h | h | h | h | h | h | h | h | h | h | h <;> (obtain ⟨rfl, _⟩ := h) <;>
    revert hb <;> decide

theorem ValType.failsAt {b : UInt8} (hb : NotVal b) : FailsAt (R := R) ValType.decode [b] := by
  have hh := fromMarker_notVal hb
  simp only [NotVal, List.mem_cons, List.not_mem_nil, or_false, not_or] at hb
  have abs : ∀ (R : Type) [LawfulRead R], FailsAt (R := R) AbsHeapType.decode [b] := by
    intro R _
    refine FailsAt.bind2 (b1 := [b]) (b2 := []) (Runs.mapErr Runs.readByte) ?_
    rw [hh]
    exact FailsAt.err
  have ref : ∀ (R : Type) [LawfulRead R], FailsAt (R := R) RefType.decode [b] := by
    intro R _
    refine FailsAt.bind2 (b1 := [b]) (b2 := []) (Runs.mapErr Runs.readByte) ?_
    refine FailsAt.ite_neg hb.2.2.2.2.2.1 (FailsAt.ite_neg hb.2.2.2.2.2.2.1 ?_)
    exact FailsAt.bind1 (FailsAt.mapErr (FailsAt.withChain (abs _)))
  refine FailsAt.bind2 (b1 := [b]) (b2 := []) (Runs.mapErr Runs.readByte) ?_
  refine FailsAt.ite_neg hb.1 (FailsAt.ite_neg hb.2.1 (FailsAt.ite_neg hb.2.2.1
    (FailsAt.ite_neg hb.2.2.2.1 (FailsAt.ite_neg hb.2.2.2.2.1 ?_))))
  exact FailsAt.bind1 (FailsAt.mapErr (FailsAt.withChain (ref _)))

/-- The three classes of first bytes. -/
theorem byte_classes (b : UInt8) :
    NotVal b ∨ (∃ t, BValType [b] t) ∨ b = 0x63 ∨ b = 0x64 := by
  by_cases h : NotVal b
  · exact .inl h
  · simp only [NotVal, Decidable.not_not, List.mem_cons, List.not_mem_nil, or_false] at h
    rcases h with rfl | rfl | rfl | rfl | rfl | rfl | rfl | rfl | rfl | rfl | rfl | rfl | rfl | rfl |
      rfl | rfl | rfl | rfl | rfl
    · exact .inr (.inl ⟨_, .i32⟩)
    · exact .inr (.inl ⟨_, .i64⟩)
    · exact .inr (.inl ⟨_, .f32⟩)
    · exact .inr (.inl ⟨_, .f64⟩)
    · exact .inr (.inl ⟨_, .v128⟩)
    · exact .inr (.inr (.inl rfl))
    · exact .inr (.inr (.inr rfl))
    · exact .inr (.inl ⟨_, .ref (.abs .exn)⟩)
    · exact .inr (.inl ⟨_, .ref (.abs .array)⟩)
    · exact .inr (.inl ⟨_, .ref (.abs .struct)⟩)
    · exact .inr (.inl ⟨_, .ref (.abs .i31)⟩)
    · exact .inr (.inl ⟨_, .ref (.abs .eq)⟩)
    · exact .inr (.inl ⟨_, .ref (.abs .any)⟩)
    · exact .inr (.inl ⟨_, .ref (.abs .extern)⟩)
    · exact .inr (.inl ⟨_, .ref (.abs .func)⟩)
    · exact .inr (.inl ⟨_, .ref (.abs .none)⟩)
    · exact .inr (.inl ⟨_, .ref (.abs .noextern)⟩)
    · exact .inr (.inl ⟨_, .ref (.abs .nofunc)⟩)
    · exact .inr (.inl ⟨_, .ref (.abs .noexn)⟩)

theorem blockTypeIndex_fails63 : Fails (R := R) blockTypeIndex [0x63] (.NegativeTypeIndex (-29)) := by
  refine Fails.bind2 (b1 := [0x63]) (b2 := []) (x := (-29)) (Runs.mapErr (decodeS33_runs ?_)) ?_
  · exact BS.neg (n := 0x63) (by decide) (by decide) (by decide)
  · exact Fails.ite_pos (by decide) Fails.err

theorem blockTypeIndex_fails64 : Fails (R := R) blockTypeIndex [0x64] (.NegativeTypeIndex (-28)) := by
  refine Fails.bind2 (b1 := [0x64]) (b2 := []) (x := (-28)) (Runs.mapErr (decodeS33_runs ?_)) ?_
  · exact BS.neg (n := 0x64) (by decide) (by decide) (by decide)
  · exact Fails.ite_pos (by decide) Fails.err

/-- After a failed `ValType::decode` that started with 0x63 or 0x64, the index read fails. -/
theorem index_fails {b : UInt8} (hb : b = 0x63 ∨ b = 0x64) :
    ∃ e : BlockTypeError, ErrInfo.murky e = true ∧
      ∀ (R : Type) [LawfulRead R] (r : R), ∃ r', Dec.withChain b blockTypeIndex r = (.err e, r') := by
  rcases hb with rfl | rfl
  · exact ⟨_, rfl, fun R _ r => Fails.withChain (bs := []) blockTypeIndex_fails63 r (avail r) (by simp)⟩
  · exact ⟨_, rfl, fun R _ r => Fails.withChain (bs := []) blockTypeIndex_fails64 r (avail r) (by simp)⟩

/-- The part of `BlockType::decode` after the test for 0x40. -/
def blockInner (b : UInt8) : Dec R BlockTypeError BlockType :=
  Dec.orElseDiscard ValType.decode .T (Dec.withChain b blockTypeIndex)

theorem blockInner_sound {b : UInt8} (r : R) (rest : Bytes) (v : BlockType) (r' : R)
    (ha : avail r = b :: rest) (heq : blockInner b r = (.ok v, r')) :
    ∃ bs, Adv bs r r' ∧ BBlockType bs v := by
  simp only [blockInner, Dec.orElseDiscard] at heq
  rcases hv : ValType.decode r with ⟨res, r1⟩
  rw [hv] at heq
  cases res with
  | ok t =>
    cases heq
    obtain ⟨bs, h1, h2⟩ := ValType.sound _ _ _ hv
    exact ⟨bs, h1, .val h2⟩
  | err e =>
    simp only at heq
    rcases byte_classes b with h | ⟨t, h⟩ | h
    · obtain ⟨e', r1', h1, h2⟩ := ValType.failsAt h r rest ha
      rw [hv] at h1
      cases h1
      obtain ⟨bs, h3, x, h4, h5⟩ := Sound.withChain blockTypeIndex_sound
        (by rintro v ⟨x, _, h⟩; exact BS.nonempty h) _ _ _ heq
      subst h4
      exact ⟨[b] ++ bs, adv_trans h2 h3, .idx h5⟩
    · obtain ⟨r2, h1, _⟩ := ValType.runs h r rest ha
      rw [hv] at h1; cases h1
    · obtain ⟨e, _, h1⟩ := index_fails h
      obtain ⟨r2, h2⟩ := h1 _ r1
      rw [h2] at heq; cases heq
  | panic => cases heq
  | fuel => cases heq

theorem BBlockType.nonempty {t : BlockType} : ¬ BBlockType [] t := by
  intro h
  cases h with
  | val h => exact BValType.nonempty h
  | idx h => exact BS.nonempty h

theorem BlockType.sound : Sound (R := R) BlockType.decode BBlockType := by
  refine Sound.bind (Sound.mapErr Sound.readByte) ?_
  rintro b _ rfl
  refine Sound.ite ?_ fun _ => ?_
  · rintro rfl; exact Sound.pure .empty
  · exact Sound.withChainAt (fun r rest v r' ha h => blockInner_sound r rest v r' ha h)
      (fun _ => BBlockType.nonempty)

theorem blockInner_runs_val {b : UInt8} {bs : Bytes} {t : ValType} (h : BValType bs t) :
    Runs (R := R) (blockInner b) bs (.T t) := by
  intro r rest ha
  obtain ⟨r', h1, h2⟩ := ValType.runs h r rest ha
  exact ⟨r', by simp only [blockInner, Dec.orElseDiscard, h1], h2⟩

theorem blockInner_runs_idx {b : UInt8} {bs : Bytes} {x : UInt32} (hb : NotVal b)
    (h : BS 33 (b :: bs) x.toNat) : Runs (R := R) (blockInner b) (b :: bs) (.I x) := by
  intro r rest ha
  obtain ⟨e, r1, h1, h2⟩ := ValType.failsAt hb r (bs ++ rest) ha
  have := adv_avail h2
  rw [ha] at this
  simp at this
  obtain ⟨r2, h3, h4⟩ := Runs.withChain (blockTypeIndex_runs h) r1 rest this.symm
  exact ⟨r2, by simp only [blockInner, Dec.orElseDiscard, h1, h3], adv_trans h2 h4⟩

theorem not_val40 {bs : Bytes} {t : ValType} : ¬ BValType (0x40 :: bs) t := by
  intro h
  cases h with
  | ref h =>
    cases h with
    | abs h => cases h

theorem BlockType.runs {bs : Bytes} {t : BlockType} (h : BBlockType bs t) :
    Runs (R := R) BlockType.decode bs t := by
  cases h with
  | empty =>
    exact Runs.bind (b1 := [0x40]) (b2 := []) (Runs.mapErr Runs.readByte) Runs.pure
  | val h =>
    match bs, h with
    | [], h => exact absurd h BValType.nonempty
    | b :: bs, h =>
      refine Runs.bind (b1 := [b]) (b2 := bs) (Runs.mapErr Runs.readByte) ?_
      refine Runs.ite_neg ?_ ?_
      · rintro rfl
        exact not_val40 h
      · exact Runs.withChain (blockInner_runs_val h)
  | idx h =>
    match bs, h with
    | [], h => exact absurd h BS.nonempty
    | b :: bs, h =>
      have hb := BS.nonneg_head h (by omega)
      refine Runs.bind (b1 := [b]) (b2 := bs) (Runs.mapErr Runs.readByte) ?_
      refine Runs.ite_neg ?_ ?_
      · rintro rfl; revert hb; decide
      · refine Runs.withChain (blockInner_runs_idx ?_ h)
        simp only [NotVal, List.mem_cons, List.not_mem_nil, or_false, not_or]
        refine ⟨?_, ?_, ?_, ?_, ?_, ?_, ?_, ?_, ?_, ?_, ?_, ?_, ?_, ?_, ?_, ?_, ?_, ?_, ?_⟩ <;>
          (rintro rfl; revert hb; decide)

theorem readByte_nil {r r' : R} {x : IoError} (h : (readByte : Dec R IoError UInt8) r = (.err x, r')) :
    avail r = [] := by
  cases ha : avail r with
  | nil => rfl
  | cons b t =>
    obtain ⟨r1, h1, _⟩ := Runs.readByte (R := R) (b := b) r t ha
    rw [h] at h1; cases h1

/-- An I/O error while a heap type is read: the input ends inside a type index. -/
theorem heapType_io {r r' : R} {e : DecodeHeapTypeError} {x : IoError}
    (h : HeapType.decode r = (.err e, r')) (hx : ErrInfo.root e = some x) :
    AllCont (avail r) ∧ (avail r).length ≤ 4 := by
  unfold HeapType.decode at h
  rcases Dec.bind_err h with h | ⟨b, r1, h1, h⟩
  · obtain ⟨y, _, h⟩ := Dec.mapErr_err h
    rw [readByte_nil h]
    exact ⟨by simp [AllCont], by simp⟩
  · obtain ⟨bs, hadv, rfl⟩ := Sound.readByte (R := R) _ _ _ (Dec.mapErr_ok h1)
    have hav := adv_avail hadv
    generalize fromMarker AbsHeapType.markers b = o at h
    cases o with
    | some t => cases h
    | none =>
      rcases Dec.bind_err h with h | ⟨v, r2, h1, h⟩
      · obtain ⟨y, rfl, hy⟩ := Dec.mapErr_err h
        obtain ⟨c, _, hd⟩ := Dec.withChain_err hy
        have hcl := decodeS33_classifies (R := Chain R)
        rcases hcl.only _ _ _ hd with ⟨z, rfl⟩ | rfl | rfl
        · obtain ⟨h1, h2, _⟩ := (hcl.io_iff _ _).1 ⟨_, hd⟩
          have e : avail ({ first := [b], inner := r1 } : Chain R) = avail r := by
            rw [hav]; rfl
          rw [e] at h1 h2
          exact ⟨h1, by omega⟩
        · cases hx
        · cases hx
      · split at h
        · cases h; cases hx
        · rcases Dec.bind_err h with h | ⟨w, r3, _, h⟩
          · simp only [i64ToU32] at h
            split at h <;> cases h
          · cases h

theorem refType_io {r r' : R} {b : UInt8} {t : Bytes} {e : DecodeRefTypeError} {x : IoError}
    (hb : b = 0x63 ∨ b = 0x64) (ha : avail r = b :: t)
    (h : RefType.decode r = (.err e, r')) (hx : ErrInfo.root e = some x) :
    AllCont t ∧ t.length ≤ 4 := by
  obtain ⟨r1, h1, h2⟩ := Runs.readByte (R := R) (b := b) r t ha
  have hav := adv_avail h2
  rw [ha] at hav
  have hav : t = avail r1 := by simpa using hav
  rw [hav]
  have key : ∀ n : Bool, (Dec.mapErr DecodeRefTypeError.DecodeHeapType HeapType.decode >>=
      fun ht => (pure ⟨n, ht⟩ : Dec R DecodeRefTypeError RefType)) r1 = (.err e, r') →
      AllCont (avail r1) ∧ (avail r1).length ≤ 4 := by
    intro n h
    rcases Dec.bind_err h with h | ⟨v, r2, _, h⟩
    · obtain ⟨y, rfl, hy⟩ := Dec.mapErr_err h
      exact heapType_io hy hx
    · cases h
  unfold RefType.decode at h
  rcases Dec.bind_err h with h | ⟨b', r1', h3, h⟩
  · obtain ⟨y, _, h⟩ := Dec.mapErr_err h
    rw [h1] at h; cases h
  · have h3 := Dec.mapErr_ok h3
    rw [h1] at h3
    cases h3
    rcases hb with rfl | rfl
    · rw [if_pos rfl] at h
      exact key _ h
    · rw [if_neg (by decide), if_pos rfl] at h
      exact key _ h

theorem valType_io {r r' : R} {b : UInt8} {t : Bytes} {e : DecodeValTypeError} {x : IoError}
    (hb : b = 0x63 ∨ b = 0x64) (ha : avail r = b :: t)
    (h : ValType.decode r = (.err e, r')) (hx : ErrInfo.root e = some x) :
    AllCont t ∧ t.length ≤ 4 := by
  obtain ⟨r1, h1, h2⟩ := Runs.readByte (R := R) (b := b) r t ha
  have hav := adv_avail h2
  rw [ha] at hav
  have hav : t = avail r1 := by simpa using hav
  have hn : b ≠ 0x7F ∧ b ≠ 0x7E ∧ b ≠ 0x7D ∧ b ≠ 0x7C ∧ b ≠ 0x7B := by
    rcases hb with rfl | rfl <;> decide
  unfold ValType.decode at h
  rcases Dec.bind_err h with h | ⟨b', r1', h3, h⟩
  · obtain ⟨y, _, h⟩ := Dec.mapErr_err h
    rw [h1] at h; cases h
  · have h3 := Dec.mapErr_ok h3
    rw [h1] at h3
    cases h3
    rw [if_neg hn.1, if_neg hn.2.1, if_neg hn.2.2.1, if_neg hn.2.2.2.1, if_neg hn.2.2.2.2] at h
    rcases Dec.bind_err h with h | ⟨v, r2, _, h⟩
    · obtain ⟨y, rfl, hy⟩ := Dec.mapErr_err h
      obtain ⟨c, _, hd⟩ := Dec.withChain_err hy
      exact refType_io hb (by rw [hav]; rfl) hd hx
    · cases h

theorem blockInner_g {b : UInt8} (r : R) (s : S) (t1 : Bytes) (hr : avail r = b :: t1)
    (hp : avail r <+: avail s) : GOut 1 (blockInner b) r s (blockInner b r) := by
  obtain ⟨t, ht⟩ := hp
  have hs : avail s = b :: (t1 ++ t) := by rw [← ht, hr]; rfl
  have hp : avail r <+: avail s := ⟨t, ht⟩
  rcases byte_classes b with h | ⟨ty, h⟩ | h
  · obtain ⟨e, r1, h1, ha1⟩ := ValType.failsAt h r t1 hr
    obtain ⟨e', s1, h1', ha1'⟩ := ValType.failsAt h s (t1 ++ t) hs
    have e1 : blockInner b r = Dec.withChain b blockTypeIndex r1 := by
      simp only [blockInner, Dec.orElseDiscard, h1]
    have e2 : (blockInner b : Dec S _ _) s = Dec.withChain b blockTypeIndex s1 := by
      simp only [blockInner, Dec.orElseDiscard, h1']
    have hav := adv_avail ha1
    have hav' := adv_avail ha1'
    have hav2 : avail s1 = t1 ++ t := by rw [hs] at hav'; simpa using hav'.symm
    have hav1 : avail r1 = t1 := by rw [hr] at hav; simpa using hav.symm
    have hg := GOut.withChain (b := b) (r := r1) (s := s1) (blockTypeIndex_g (R := Chain R)
      (S := Chain S) (L := (avail s1).length + 1) _ _ (by simp [avail, hav1, hav2])
      (by simp [avail, hav1, hav2]))
    rw [e1]
    rcases hh : Dec.withChain b blockTypeIndex r1 with ⟨res, r2⟩
    rw [hh] at hg
    have heq : avail s = avail r → avail s1 = avail r1 := by
      intro h; rw [hav, hav'] at h; simpa using h
    cases res with
    | ok v =>
      obtain ⟨bs, s2, _, h2, h3, h4⟩ := hg
      exact ⟨[b] ++ bs, s2, by simp, by rw [e2, h2], adv_trans ha1 h3, adv_trans ha1' h4⟩
    | err e =>
      rcases hg with ⟨s2, h2⟩ | ⟨mk, h2, h3, h4⟩ | ⟨h2, hD, h3⟩
      · exact Or.inl ⟨s2, by rw [e2, h2]⟩
      · refine Or.inr (Or.inl ⟨mk, h2, by rw [h3, adv_fin ha1], fun hh => ?_⟩)
        obtain ⟨s2, h5⟩ := h4 (heq hh)
        exact ⟨s2, by rw [e2, h5, adv_fin ha1']⟩
      · refine Or.inr (Or.inr ⟨h2, by rw [hr, ← hav1]; exact hD, fun hh => ?_⟩)
        obtain ⟨s2, h5⟩ := h3 (heq hh)
        exact ⟨s2, by rw [e2, h5]⟩
    | panic => exact hg
    | fuel => exact hg
  · obtain ⟨r2, h1, h2⟩ := blockInner_runs_val (b := b) h r t1 hr
    obtain ⟨s2, h3, h4⟩ := blockInner_runs_val (b := b) h s (t1 ++ t) hs
    rw [h1]
    exact ⟨[b], s2, by simp, h3, h2, h4⟩
  · obtain ⟨e, hm, hf⟩ := index_fails h
    have hg := ValType.g (R := R) (S := S) (L := (avail s).length) r s
      hp.length_le hp
    rcases hh : ValType.decode r with ⟨res, r1⟩
    rw [hh] at hg
    cases res with
    | ok v =>
      obtain ⟨bs, s1, h0, h1, h2, h3⟩ := hg
      have e1 : blockInner b r = (.ok (.T v), r1) := by
        simp only [blockInner, Dec.orElseDiscard, hh]
      rw [e1]
      exact ⟨bs, s1, h0, by simp only [blockInner, Dec.orElseDiscard, h1], h2, h3⟩
    | err e' =>
      obtain ⟨r2, hr2⟩ := hf _ r1
      have e1 : blockInner b r = (.err e, r2) := by
        simp only [blockInner, Dec.orElseDiscard, hh, hr2]
      rw [e1]
      have key : ∀ e'' s1, ValType.decode s = (.err e'', s1) →
          ∃ s', (blockInner b : Dec S _ _) s = (.err e, s') := by
        intro e'' s1 h
        obtain ⟨s2, hs2⟩ := hf _ s1
        exact ⟨s2, by simp only [blockInner, Dec.orElseDiscard, h, hs2]⟩
      rcases hg with ⟨s2, h2⟩ | ⟨mk, h2, h3, h4⟩ | ⟨h2, _⟩
      · exact Or.inl (key _ _ h2)
      · have hio := valType_io h hr hh (by rw [h3]; exact h2 _)
        refine Or.inr (Or.inr ⟨hm, ⟨[], b, t1, hr, h, hio⟩, fun hh => ?_⟩)
        obtain ⟨s2, h5⟩ := h4 hh
        exact key _ _ h5
      · rw [Clear.clear] at h2; cases h2
    | panic => exact hg.elim
    | fuel => exact hg.elim

theorem BlockType.g : G 1 L (BlockType.decode : Dec R _ _) (BlockType.decode : Dec S _ _) := by
  intro r s hL hp
  cases ha : avail r with
  | nil =>
    have h0 : (avail r).length < 1 := by rw [ha]; simp
    obtain ⟨r', h1⟩ := readExact_err (r := r) (n := 1) h0
    have e1 : BlockType.decode r = (.err (.ReadMarkerByte (fin r).toErr), r') := by
      simp only [BlockType.decode, readByte, Bind.bind, Dec.bind, Dec.mapErr, h1]
    rw [e1]
    refine .inr (.inl ⟨.ReadMarkerByte, fun _ => rfl, rfl, fun h => ?_⟩)
    obtain ⟨s', h2⟩ := readExact_err (r := s) (n := 1) (by rw [h, ha]; simp)
    exact ⟨s', by simp only [BlockType.decode, readByte, Bind.bind, Dec.bind, Dec.mapErr, h2]⟩
  | cons b t =>
    obtain ⟨t', ht⟩ := hp
    have ha' : avail s = b :: (t ++ t') := by rw [← ht, ha]; rfl
    obtain ⟨r1, h1, h2⟩ := Runs.readByte (R := R) (b := b) r t ha
    obtain ⟨s1, h1', h2'⟩ := Runs.readByte (R := S) (b := b) s (t ++ t') ha'
    have hav : t = avail r1 := by have := adv_avail h2; rw [ha] at this; simpa using this
    have hav' : t ++ t' = avail s1 := by have := adv_avail h2'; rw [ha'] at this; simpa using this
    by_cases hb : b = 0x40
    · have e1 : BlockType.decode r = (.ok .Empty, r1) := by
        simp only [BlockType.decode, Bind.bind, Dec.bind, Dec.mapErr, h1, if_pos hb]; rfl
      have e2 : BlockType.decode s = (.ok .Empty, s1) := by
        simp only [BlockType.decode, Bind.bind, Dec.bind, Dec.mapErr, h1', if_pos hb]; rfl
      rw [e1]
      exact ⟨[b], s1, by simp, e2, h2, h2'⟩
    · have e1 : BlockType.decode r = Dec.withChain b (blockInner b) r1 := by
        simp only [BlockType.decode, Bind.bind, Dec.bind, Dec.mapErr, h1, if_neg hb]; rfl
      have e2 : BlockType.decode s = Dec.withChain b (blockInner b) s1 := by
        simp only [BlockType.decode, Bind.bind, Dec.bind, Dec.mapErr, h1', if_neg hb]; rfl
      have hg := GOut.withChain (b := b) (r := r1) (s := s1) (blockInner_g (R := Chain R)
        (S := Chain S) (b := b) _ _ (avail r1) (by simp [avail])
        (by simp [avail, ← hav, ← hav']))
      rw [e1]
      rcases hh : Dec.withChain b (blockInner b) r1 with ⟨res, r2⟩
      rw [hh] at hg
      have heq : avail s = avail r → avail s1 = avail r1 := by
        intro h; rw [ha, ha', hav', hav] at h; simpa using h
      cases res with
      | ok v =>
        obtain ⟨bs, s2, _, q1, q2, q3⟩ := hg
        exact ⟨[b] ++ bs, s2, by simp, by rw [e2, q1], adv_trans h2 q2, adv_trans h2' q3⟩
      | err e =>
        rcases hg with ⟨s2, q1⟩ | ⟨mk, q1, q2, q3⟩ | ⟨q1, hD, q2⟩
        · exact .inl ⟨s2, by rw [e2, q1]⟩
        · refine .inr (.inl ⟨mk, q1, by rw [q2, adv_fin h2], fun h => ?_⟩)
          obtain ⟨s2, q4⟩ := q3 (heq h)
          exact ⟨s2, by rw [e2, q4, adv_fin h2']⟩
        · refine .inr (.inr ⟨q1, by rw [ha, hav]; exact hD, fun h => ?_⟩)
          obtain ⟨s2, q4⟩ := q2 (heq h)
          exact ⟨s2, by rw [e2, q4]⟩
      | panic => exact hg
      | fuel => exact hg

/-! ### Catch clauses and cast operators -/

theorem Catch.sound : Sound (R := R) Catch.decode BCatch := by
  refine Sound.bind (Sound.mapErr Sound.readByte) ?_
  rintro b _ rfl
  refine Sound.ite ?_ fun _ => Sound.ite ?_ fun _ => Sound.ite ?_ fun _ => Sound.ite ?_ fun _ => Sound.err
  · rintro rfl
    exact Sound.bind (Sound.mapErr TagIdx.sound) fun x b1 h1 =>
      Sound.bind (Sound.mapErr LabelIdx.sound) fun y b2 h2 => Sound.pure (by simpa using BCatch.catch h1 h2)
  · rintro rfl
    exact Sound.bind (Sound.mapErr TagIdx.sound) fun x b1 h1 =>
      Sound.bind (Sound.mapErr LabelIdx.sound) fun y b2 h2 => Sound.pure (by simpa using BCatch.catchRef h1 h2)
  · rintro rfl
    exact Sound.bind (Sound.mapErr LabelIdx.sound) fun y b2 h2 => Sound.pure (by simpa using BCatch.catchAll h2)
  · rintro rfl
    exact Sound.bind (Sound.mapErr LabelIdx.sound) fun y b2 h2 => Sound.pure (by simpa using BCatch.catchAllRef h2)

theorem Catch.runs {bs : Bytes} {c : Wadec.Catch} (h : BCatch bs c) : Runs (R := R) Catch.decode bs c := by
  cases h with
  | @«catch» b1 b2 x l h1 h2 =>
    refine Runs.bind (b1 := [0x00]) (b2 := b1 ++ b2) (Runs.mapErr Runs.readByte) ?_
    exact Runs.ite_pos rfl (Runs.bind (Runs.mapErr (TagIdx.runs h1))
      (Runs.bind_pure (Runs.mapErr (LabelIdx.runs h2))))
  | @catchRef b1 b2 x l h1 h2 =>
    refine Runs.bind (b1 := [0x01]) (b2 := b1 ++ b2) (Runs.mapErr Runs.readByte) ?_
    exact Runs.ite_neg (by decide) (Runs.ite_pos rfl (Runs.bind (Runs.mapErr (TagIdx.runs h1))
      (Runs.bind_pure (Runs.mapErr (LabelIdx.runs h2)))))
  | @catchAll bs l h =>
    refine Runs.bind (b1 := [0x02]) (b2 := bs) (Runs.mapErr Runs.readByte) ?_
    exact Runs.ite_neg (by decide) (Runs.ite_neg (by decide) (Runs.ite_pos rfl
      (Runs.bind_pure (Runs.mapErr (LabelIdx.runs h)))))
  | @catchAllRef bs l h =>
    refine Runs.bind (b1 := [0x03]) (b2 := bs) (Runs.mapErr Runs.readByte) ?_
    exact Runs.ite_neg (by decide) (Runs.ite_neg (by decide) (Runs.ite_neg (by decide)
      (Runs.ite_pos rfl (Runs.bind_pure (Runs.mapErr (LabelIdx.runs h))))))

theorem Catch.g : G 1 L (Catch.decode : Dec R _ _) (Catch.decode : Dec S _ _) := by
  refine G.bind (gmap G.readByte) (j := 0) (fun b => ?_) (by omega)
  refine G.ite (fun _ => ?_) fun _ => G.ite (fun _ => ?_) fun _ => G.ite (fun _ => ?_) fun _ =>
    G.ite (fun _ => ?_) fun _ => G.err
  · exact G.bind0 (G.mono (gmap TagIdx.g) (by omega)) fun _ =>
      G.bind0 (G.mono (gmap LabelIdx.g) (by omega)) fun _ => G.pure
  · exact G.bind0 (G.mono (gmap TagIdx.g) (by omega)) fun _ =>
      G.bind0 (G.mono (gmap LabelIdx.g) (by omega)) fun _ => G.pure
  · exact G.bind0 (G.mono (gmap LabelIdx.g) (by omega)) fun _ => G.pure
  · exact G.bind0 (G.mono (gmap LabelIdx.g) (by omega)) fun _ => G.pure

theorem castop_sound : Sound (R := R) decodeCastop BCastop := by
  refine Sound.bind (Sound.mapErr Sound.readByte) ?_
  rintro b _ rfl
  refine Sound.ite ?_ fun _ => Sound.ite ?_ fun _ => Sound.ite ?_ fun _ => Sound.ite ?_ fun _ => Sound.err
  · rintro rfl; exact Sound.pure .nn
  · rintro rfl; exact Sound.pure .yn
  · rintro rfl; exact Sound.pure .ny
  · rintro rfl; exact Sound.pure .yy

theorem castop_runs {bs : Bytes} {c : Bool × Bool} (h : BCastop bs c) :
    Runs (R := R) decodeCastop bs c := by
  cases h <;> exact Runs.bind (b1 := [_]) (b2 := []) (Runs.mapErr Runs.readByte) Runs.pure

theorem castop_g : G 1 L (decodeCastop : Dec R _ _) (decodeCastop : Dec S _ _) := by
  refine G.bind (gmap G.readByte) (j := 0) (fun b => ?_) (by omega)
  exact G.ite (fun _ => G.pure) fun _ => G.ite (fun _ => G.pure) fun _ => G.ite (fun _ => G.pure) fun _ =>
    G.ite (fun _ => G.pure) fun _ => G.err

end Wadec
