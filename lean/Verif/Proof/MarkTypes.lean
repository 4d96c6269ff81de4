import Verif.Proof.Mark

/-! C41: complaints about types. -/

namespace Wadec

open Wadec.Spec LawfulRead MarkOf

variable {R : Type} [LawfulRead R] {acc : Bytes}

/-- the mark of the payload is the mark of the error -/
macro "bmap" t:term : term => `(Bl.mapErr $t (fun _ _ => id))

/-- a decoder whose errors contain no complaints -/
macro "bnone" t:term : term => `(Bl.ofSound $t (fun e => by cases e <;> rfl))

theorem io_bl {α : Type} {T : Bytes → α → Prop} {d : Dec R IoError α} (h : Sound d T) : Bl acc d :=
  Bl.ofSound h fun _ => rfl

theorem u32_bl : Bl acc (decodeU32 : Dec R _ _) := bnone decodeU32_sound
theorem u64_bl : Bl acc (decodeU64 : Dec R _ _) := bnone decodeU64_sound
theorem i32_bl : Bl acc (decodeI32 : Dec R _ _) := bnone decodeI32_sound
theorem i64_bl : Bl acc (decodeI64 : Dec R _ _) := bnone decodeI64_sound
theorem s33_bl : Bl acc (decodeS33 : Dec R _ _) := bnone decodeS33_sound
theorem f32_bl : Bl acc (decodeF32 : Dec R _ _) := bnone decodeF32_sound
theorem f64_bl : Bl acc (decodeF64 : Dec R _ _) := bnone decodeF64_sound
theorem byte_bl : Bl acc (readByte : Dec R _ _) := io_bl Sound.readByte

theorem u32_none (e : DecodeU32Error) : mark e = none := by cases e <;> rfl

theorem TypeIdx.bl : Bl acc (TypeIdx.decode : Dec R _ _) :=
  Bl.ofSound TypeIdx.sound fun ⟨e⟩ => u32_none e
theorem FuncIdx.bl : Bl acc (FuncIdx.decode : Dec R _ _) :=
  Bl.ofSound FuncIdx.sound fun ⟨e⟩ => u32_none e
theorem TableIdx.bl : Bl acc (TableIdx.decode : Dec R _ _) :=
  Bl.ofSound TableIdx.sound fun ⟨e⟩ => u32_none e
theorem MemIdx.bl : Bl acc (MemIdx.decode : Dec R _ _) :=
  Bl.ofSound MemIdx.sound fun ⟨e⟩ => u32_none e
theorem GlobalIdx.bl : Bl acc (GlobalIdx.decode : Dec R _ _) :=
  Bl.ofSound GlobalIdx.sound fun ⟨e⟩ => u32_none e
theorem ElemIdx.bl : Bl acc (ElemIdx.decode : Dec R _ _) :=
  Bl.ofSound ElemIdx.sound fun ⟨e⟩ => u32_none e
theorem DataIdx.bl : Bl acc (DataIdx.decode : Dec R _ _) :=
  Bl.ofSound DataIdx.sound fun ⟨e⟩ => u32_none e
theorem LocalIdx.bl : Bl acc (LocalIdx.decode : Dec R _ _) :=
  Bl.ofSound LocalIdx.sound fun ⟨e⟩ => u32_none e
theorem LabelIdx.bl : Bl acc (LabelIdx.decode : Dec R _ _) :=
  Bl.ofSound LabelIdx.sound fun ⟨e⟩ => u32_none e
theorem TagIdx.bl : Bl acc (TagIdx.decode : Dec R _ _) :=
  Bl.ofSound TagIdx.sound fun ⟨e⟩ => u32_none e
theorem byteVec_bl : Bl acc (decodeByteVector : Dec R _ _) :=
  Bl.ofSound byteVec_sound fun e => by
    cases e with
    | DecodeLength e => exact u32_none e
    | ReadElements e => rfl
theorem name_bl : Bl acc (decodeName : Dec R _ _) :=
  Bl.ofSound name_sound fun e => by
    cases e with
    | DecodeByteVector e =>
      cases e with
      | DecodeLength e => exact u32_none e
      | ReadElements e => rfl
    | Utf8 e => rfl

/-! ### Lists -/

theorem listLoop_bl {ε α σ : Type} [MarkOf ε] {f : σ → Dec R ε (α × σ)} (hf : ∀ st, Bl [] (f st)) :
    ∀ n i st items, Bl [] (decodeListLoop f n i st items)
  | 0, i, st, items => Bl.pure
  | n + 1, i, st, items => by
    refine Bl.bind (bmap (hf st)) ?_
    rintro ⟨elem, st'⟩
    exact listLoop_bl hf n (i + 1) st' (items ++ [elem])

theorem listS_bl {ε α σ : Type} [MarkOf ε] {f : σ → Dec R ε (α × σ)} {st : σ}
    (hf : ∀ st, Bl [] (f st)) : Bl acc (decodeListS f st) :=
  Bl.bind (bmap u32_bl) fun n => Bl.bind Bl.reserve fun _ => listLoop_bl hf _ _ _ _

theorem list_bl {ε α : Type} [MarkOf ε] {f : Dec R ε α} (hf : Bl [] f) : Bl acc (decodeList f) := by
  refine Bl.bind (listS_bl fun _ => Bl.bind hf fun _ => Bl.pure) ?_
  rintro ⟨items, _⟩
  exact Bl.pure

/-! ### Value types -/

/-- A complaint about a single byte that starts nothing of the expected sort. -/
theorem Bl.errByte {ε α : Type} [MarkOf ε] {e : ε} {b : UInt8} {m : Mark} (hm : mark e = some m)
    (hs : m.Spelled [b]) (h : ∀ t, ¬ m.Sort (b :: t)) : Bl (acc ++ [b]) (Dec.err e : Dec R ε α) :=
  Bl.err fun m' hm' => by
    rw [hm] at hm'
    cases hm'
    exact ⟨acc, [b], rfl, by simp, hs, h⟩

theorem absMarker_none {b : UInt8} {t : Bytes} {a : AbsHeapType}
    (h : fromMarker AbsHeapType.markers b = none) : ¬ BAbsHeapType (b :: t) a := by
  intro ha
  obtain ⟨b', hb⟩ := BAbsHeapType.single ha
  cases hb
  rw [absMarker_iff.mpr ha] at h
  cases h

theorem mutMarker_none {b : UInt8} {t : Bytes} {a : Mut}
    (h : fromMarker Mut.markers b = none) : ¬ BMut (b :: t) a := by
  intro ha
  obtain ⟨b', hb⟩ := BMut.single ha
  cases hb
  rw [mutMarker_iff.mpr ha] at h
  cases h

theorem s33_unique {b1 b2 t1 t2 : Bytes} {x1 x2 : Int64} (h1 : BS33 b1 x1) (h2 : BS33 b2 x2)
    (h : b1 ++ t1 = b2 ++ t2) : b1 = b2 ∧ x1 = x2 := c35_values.2.2.2.2.1 h1 h2 h

theorem not_index {enc t : Bytes} {x : Int64} {v : UInt32} (h : BS33 enc x) (hx : x.toInt < 0) :
    ¬ BS 33 (enc ++ t) v.toNat := by
  intro hv
  obtain ⟨hy, hv'⟩ := BS33.ofU32 hv
  have := (s33_unique (t1 := t) (t2 := []) h hy (by simp)).2
  subst this
  omega

theorem i64ToU32_bl {ε : Type} [MarkOf ε] {x : Int64} : Bl acc (i64ToU32 x : Dec R ε UInt32) :=
  Bl.ite (fun _ => Bl.pure) fun _ => Bl.panic

theorem s33Chain_bl {b : UInt8} : Bl [b] (Dec.withChain b decodeS33 : Dec R _ _) :=
  Bl.withChain decodeS33_sound (fun _ => BS.nonempty) s33_bl.2

theorem HeapType.bl : Bl acc (HeapType.decode : Dec R _ _) := by
  refine Bl.any (Bl.byteT (fun _ => rfl) fun b => ?_)
  split
  · exact Bl.pure
  · rename_i hnone
    refine Bl.bindT (Sound.mapErr (Sound.withChain decodeS33_sound fun v => BS.nonempty))
      (bmap s33Chain_bl) ?_
    intro x bs hx
    refine Bl.ite (fun hneg => ?_) fun _ => Bl.bind i64ToU32_bl fun _ => Bl.pure
    refine Bl.err ?_
    rintro m ⟨⟩
    refine ⟨[], b :: bs, by simp, by simp, hx, ?_⟩
    rintro t ⟨ty, ht⟩
    cases ht with
    | abs h => exact absMarker_none hnone h
    | idx h => exact not_index hx hneg h

theorem AbsHeapType.bl : Bl acc (AbsHeapType.decode : Dec R _ _) := by
  refine Bl.byteT (fun _ => rfl) fun b => ?_
  split
  · exact Bl.pure
  · rename_i hnone
    exact Bl.errByte rfl rfl (by rintro t ⟨a, ha⟩; exact absMarker_none hnone ha)

/-- The byte an error of `AbsHeapType.decode` complains about is the first one. -/
theorem AbsHeapType.first {r r' : R} {e : DecodeAbsHeapTypeError} {b : UInt8}
    (h : AbsHeapType.decode r = (.err e, r')) (hm : mark e = some (.absHeapType b)) :
    ∃ t, avail r = b :: t := by
  rcases Dec.bind_err h with h | ⟨v, r1, h1, h⟩
  · obtain ⟨_, rfl, _⟩ := Dec.mapErr_err h
    cases hm
  · obtain ⟨_, h2, rfl⟩ := Sound.readByte _ _ _ (Dec.mapErr_ok h1)
    generalize fromMarker AbsHeapType.markers v = o at h
    cases o with
    | some t => cases h
    | none =>
      cases h
      cases hm
      exact ⟨_, adv_avail h2⟩

theorem refType_justified {b : UInt8} {enc : Bytes} (h1 : b ≠ 0x63) (h2 : b ≠ 0x64)
    (h : (Mark.absHeapType b).Justified enc) : (Mark.refType b).Justified enc := by
  obtain ⟨rfl, h⟩ := h
  refine ⟨rfl, ?_⟩
  rintro t ⟨ty, ht⟩
  cases ht with
  | ref _ => exact h2 rfl
  | refNull _ => exact h1 rfl
  | abs ha => exact h t ⟨_, ha⟩

theorem RefType.bl : Bl acc (RefType.decode : Dec R _ _) := by
  refine Bl.any (Bl.byteT (fun _ => rfl) fun b => ?_)
  refine Bl.ite (fun _ => ?_) fun h63 => Bl.ite (fun _ => ?_) fun h64 => ?_
  · exact Bl.bind (bmap HeapType.bl) fun _ => Bl.pure
  · exact Bl.bind (bmap HeapType.bl) fun _ => Bl.pure
  · refine Bl.bindT (T := fun _ _ => True) (Sound.mapErr ((Sound.withChain AbsHeapType.sound
      (fun _ => BAbsHeapType.nonempty)).mono fun _ _ _ => trivial)) ?_ fun _ _ _ => Bl.pure
    refine Bl.mapErrF (Bl.withChain AbsHeapType.sound (fun _ => BAbsHeapType.nonempty) AbsHeapType.bl.2) ?_
    intro r e r' m' he hm'
    simp only [Dec.withChain] at he
    rcases hdr : AbsHeapType.decode ({ first := [b], inner := r } : Chain R) with ⟨res, c⟩
    rw [hdr] at he
    cases he
    cases e with
    | ReadMarkerByte _ => cases hm'
    | InvalidMarkerByte e =>
      obtain ⟨b'⟩ := e
      obtain ⟨t, ht⟩ := AbsHeapType.first hdr rfl
      simp only [avail, List.cons_append, List.nil_append, List.cons.injEq] at ht
      cases hm'
      rw [← ht.1]
      exact ⟨_, rfl, .inr ⟨fun enc => refType_justified h63 h64, fun _ => trivial⟩⟩

/-- The byte an error of `RefType.decode` complains about is the first one (unless it complains
about a heap type). -/
theorem RefType.first {r r' : R} {e : DecodeRefTypeError} {b : UInt8}
    (h : RefType.decode r = (.err e, r')) (hm : mark e = some (.refType b)) :
    ∃ t, avail r = b :: t := by
  have hht : ∀ {e : DecodeHeapTypeError}, mark (DecodeRefTypeError.DecodeHeapType e) ≠ some (.refType b) := by
    intro e
    cases e with
    | NegativeTypeIndex => rintro ⟨⟩
    | ReadMarkerByte => rintro ⟨⟩
    | DecodeTypeIndex e => cases e <;> rintro ⟨⟩
  rcases Dec.bind_err h with h | ⟨v, r1, h1, h⟩
  · obtain ⟨_, rfl, _⟩ := Dec.mapErr_err h
    cases hm
  · obtain ⟨_, h2, rfl⟩ := Sound.readByte _ _ _ (Dec.mapErr_ok h1)
    split at h
    · rcases Dec.bind_err h with h | ⟨_, _, _, h⟩
      · obtain ⟨_, rfl, _⟩ := Dec.mapErr_err h
        exact absurd hm hht
      · cases h
    split at h
    · rcases Dec.bind_err h with h | ⟨_, _, _, h⟩
      · obtain ⟨_, rfl, _⟩ := Dec.mapErr_err h
        exact absurd hm hht
      · cases h
    rcases Dec.bind_err h with h | ⟨_, _, _, h⟩
    · obtain ⟨e, rfl, h9⟩ := Dec.mapErr_err h
      obtain ⟨c, _, h9⟩ := Dec.withChain_err h9
      cases e with
      | ReadMarkerByte _ => cases hm
      | InvalidMarkerByte e =>
        obtain ⟨b'⟩ := e
        obtain ⟨t, ht⟩ := AbsHeapType.first h9 rfl
        simp only [avail, List.cons_append, List.nil_append, List.cons.injEq] at ht
        cases hm
        rw [← ht.1]
        exact ⟨_, adv_avail h2⟩
    · cases h

theorem valType_justified {b : UInt8} {enc : Bytes} (h1 : b ≠ 0x7F) (h2 : b ≠ 0x7E) (h3 : b ≠ 0x7D)
    (h4 : b ≠ 0x7C) (h5 : b ≠ 0x7B) (h : (Mark.refType b).Justified enc) :
    (Mark.valType b).Justified enc := by
  obtain ⟨rfl, h⟩ := h
  refine ⟨rfl, ?_⟩
  rintro t ⟨ty, ht⟩
  cases ht with
  | i32 => exact h1 rfl
  | i64 => exact h2 rfl
  | f32 => exact h3 rfl
  | f64 => exact h4 rfl
  | v128 => exact h5 rfl
  | ref ha => exact h t ⟨_, ha⟩

theorem valType_up {e : DecodeRefTypeError} {m' : Mark}
    (h : mark (DecodeValTypeError.DecodeRefType e) = some m') :
    ∃ m, mark e = some m ∧ m' = m.asValType := by
  simp only [mark, Option.map_eq_some_iff] at h
  obtain ⟨m, h1, h2⟩ := h
  exact ⟨m, h1, h2.symm⟩

theorem ValType.bl : Bl acc (ValType.decode : Dec R _ _) := by
  refine Bl.any (Bl.byteT (fun _ => rfl) fun b => ?_)
  refine Bl.ite (fun _ => Bl.pure) fun h1 => Bl.ite (fun _ => Bl.pure) fun h2 =>
    Bl.ite (fun _ => Bl.pure) fun h3 => Bl.ite (fun _ => Bl.pure) fun h4 =>
    Bl.ite (fun _ => Bl.pure) fun h5 => ?_
  refine Bl.bindT (T := fun _ _ => True) (Sound.mapErr ((Sound.withChain RefType.sound
    (fun _ => BRefType.nonempty)).mono fun _ _ _ => trivial)) ?_ fun _ _ _ => Bl.pure
  refine Bl.mapErrF (Bl.withChain RefType.sound (fun _ => BRefType.nonempty) RefType.bl.2) ?_
  intro r e r' m' he hm'
  obtain ⟨c, _, he⟩ := Dec.withChain_err he
  obtain ⟨m, hm, rfl⟩ := valType_up hm'
  refine ⟨m, hm, ?_⟩
  cases m with
  | refType b' =>
    obtain ⟨t, ht⟩ := RefType.first he hm
    simp only [avail, List.cons_append, List.nil_append, List.cons.injEq] at ht
    obtain ⟨rfl, _⟩ := ht
    exact .inr ⟨fun enc => valType_justified h1 h2 h3 h4 h5, fun _ => trivial⟩
  | _ => exact .inl rfl

theorem ValType.first {r r' : R} {e : DecodeValTypeError} {b : UInt8}
    (h : ValType.decode r = (.err e, r')) (hm : mark e = some (.valType b)) :
    ∃ t, avail r = b :: t := by
  rcases Dec.bind_err h with h | ⟨v, r1, h1, h⟩
  · obtain ⟨_, rfl, _⟩ := Dec.mapErr_err h
    cases hm
  · obtain ⟨_, h2, rfl⟩ := Sound.readByte _ _ _ (Dec.mapErr_ok h1)
    split at h
    · cases h
    split at h
    · cases h
    split at h
    · cases h
    split at h
    · cases h
    split at h
    · cases h
    rcases Dec.bind_err h with h | ⟨_, _, _, h⟩
    · obtain ⟨e, rfl, h9⟩ := Dec.mapErr_err h
      obtain ⟨c, _, h9⟩ := Dec.withChain_err h9
      obtain ⟨m, hm, hm2⟩ := valType_up hm
      cases m with
      | refType b' =>
        cases hm2
        obtain ⟨t, ht⟩ := RefType.first h9 hm
        simp only [avail, List.cons_append, List.nil_append, List.cons.injEq] at ht
        rw [← ht.1]
        exact ⟨_, adv_avail h2⟩
      | valType b' =>
        exfalso
        cases e with
        | Io => cases hm
        | DecodeHeapType e =>
          cases e with
          | NegativeTypeIndex => cases hm
          | ReadMarkerByte => cases hm
          | DecodeTypeIndex e => cases e <;> cases hm
        | InvalidMarkerByte e =>
          cases e with
          | ReadMarkerByte => cases hm
          | InvalidMarkerByte e => cases hm
      | _ => cases hm2
    · cases h

theorem resultType_bl : Bl acc (decodeResultType : Dec R _ _) := bmap (list_bl ValType.bl)

theorem GlobalType.bl : Bl acc (GlobalType.decode : Dec R _ _) := by
  refine Bl.bind (bmap ValType.bl) fun _ => Bl.byteT (fun _ => rfl) fun b => ?_
  split
  · exact Bl.pure
  · rename_i hnone
    exact Bl.errByte rfl rfl (by rintro t ⟨a, ha⟩; exact mutMarker_none hnone ha)

theorem storageType_justified {b : UInt8} {enc : Bytes} (h0 : fromMarker PackType.markers b = none)
    (h : (Mark.valType b).Justified enc) : (Mark.storageType b).Justified enc := by
  obtain ⟨rfl, h⟩ := h
  refine ⟨rfl, ?_⟩
  rintro t ⟨ty, ht⟩
  cases ht with
  | i16 => cases h0
  | i8 => cases h0
  | val ha => exact h t ⟨_, ha⟩

theorem storageType_bl : Bl acc (decodeStorageType : Dec R _ _) := by
  refine Bl.any (Bl.byteT (fun _ => rfl) fun b => ?_)
  split
  · exact Bl.pure
  rename_i hnone
  refine Bl.bindT (T := fun _ _ => True) (Sound.mapErr ((Sound.withChain ValType.sound
    (fun _ => BValType.nonempty)).mono fun _ _ _ => trivial)) ?_ fun _ _ _ => Bl.pure
  refine Bl.mapErrF (Bl.withChain ValType.sound (fun _ => BValType.nonempty) ValType.bl.2) ?_
  intro r e r' m' he hm'
  obtain ⟨c, _, he⟩ := Dec.withChain_err he
  simp only [mark, Option.map_eq_some_iff] at hm'
  obtain ⟨m, hm, rfl⟩ := hm'
  refine ⟨m, hm, ?_⟩
  cases m with
  | valType b' =>
    obtain ⟨t, ht⟩ := ValType.first he hm
    simp only [avail, List.cons_append, List.nil_append, List.cons.injEq] at ht
    obtain ⟨rfl, _⟩ := ht
    exact .inr ⟨fun enc => storageType_justified hnone, fun _ => trivial⟩
  | _ => exact .inl rfl

theorem fieldType_bl : Bl acc (decodeFieldType : Dec R _ _) := by
  refine Bl.bind (bmap storageType_bl) fun _ => Bl.byteT (fun _ => rfl) fun b => ?_
  split
  · exact Bl.pure
  · rename_i hnone
    exact Bl.errByte rfl rfl (by rintro t ⟨a, ha⟩; exact mutMarker_none hnone ha)

theorem CompType.bl : Bl acc (CompType.decode : Dec R _ _) := by
  refine Bl.byteT (fun _ => rfl) fun b => ?_
  refine Bl.ite (fun _ => ?_) fun h1 => Bl.ite (fun _ => ?_) fun h2 => Bl.ite (fun _ => ?_) fun h3 => ?_
  · exact Bl.bind (bmap fieldType_bl) fun _ => Bl.pure
  · exact Bl.bind (bmap (list_bl fieldType_bl)) fun _ => Bl.pure
  · exact Bl.bind (bmap resultType_bl) fun _ => Bl.bind (bmap resultType_bl) fun _ => Bl.pure
  · refine Bl.errByte rfl rfl ?_
    rintro t ⟨ty, ht⟩
    cases ht with
    | array => exact h1 rfl
    | struct => exact h2 rfl
    | func => exact h3 rfl

theorem SubType.bl : Bl acc (SubType.decode : Dec R _ _) := by
  refine Bl.any (Bl.byteT (fun _ => rfl) fun b => ?_)
  refine Bl.ite (fun _ => ?_) fun _ => ?_
  · exact Bl.bind (bmap (list_bl TypeIdx.bl)) fun _ => Bl.bind (bmap CompType.bl) fun _ => Bl.pure
  · exact Bl.bindT (T := fun _ _ => True) (Sound.mapErr ((Sound.withChain CompType.sound
      (fun _ => BCompType.nonempty)).mono fun _ _ _ => trivial))
      (bmap (Bl.withChain CompType.sound (fun _ => BCompType.nonempty) CompType.bl.2))
      fun _ _ _ => Bl.pure

theorem RecType.bl : Bl acc (RecType.decode : Dec R _ _) := by
  refine Bl.any (Bl.byteT (fun _ => rfl) fun b => ?_)
  refine Bl.ite (fun _ => ?_) fun _ => ?_
  · exact Bl.bind (bmap (list_bl SubType.bl)) fun _ => Bl.pure
  · exact Bl.bindT (T := fun _ _ => True) (Sound.mapErr ((Sound.withChain SubType.sound
      (fun _ => BSubType.nonempty)).mono fun _ _ _ => trivial))
      (bmap (Bl.withChain SubType.sound (fun _ => BSubType.nonempty) SubType.bl.2))
      fun _ _ _ => Bl.pure

theorem limitsRest_bl {h : Bool} {a : AddrType} : Bl acc (parseLimitsRest h a : Dec R _ _) := by
  refine Bl.bind (bmap u64_bl) fun _ => ?_
  split
  · exact Bl.bind (bmap u64_bl) fun _ => Bl.pure
  · exact Bl.pure

theorem limits_bl : Bl acc (parseLimits : Dec R _ _) := by
  refine Bl.byteT (fun _ => rfl) fun b => ?_
  refine Bl.ite (fun _ => limitsRest_bl) fun h1 => Bl.ite (fun _ => limitsRest_bl) fun h2 =>
    Bl.ite (fun _ => limitsRest_bl) fun h3 => Bl.ite (fun _ => limitsRest_bl) fun h4 => ?_
  refine Bl.errByte rfl rfl ?_
  rintro t ⟨ty, ht⟩
  cases ht with
  | i32Min => exact h1 rfl
  | i32MinMax => exact h2 rfl
  | i64Min => exact h3 rfl
  | i64MinMax => exact h4 rfl

theorem memType_bl : Bl acc (parseMemType : Dec R _ _) := Bl.bind (bmap limits_bl) fun _ => Bl.pure

theorem TableType.bl : Bl acc (TableType.decode : Dec R _ _) :=
  Bl.bind (bmap RefType.bl) fun _ => Bl.bind (bmap limits_bl) fun _ => Bl.pure

theorem TagType.bl : Bl acc (TagType.decode : Dec R _ _) := by
  refine Bl.byteT (fun _ => rfl) fun b => ?_
  refine Bl.ite (fun h1 => ?_) fun _ => Bl.bind (bmap TypeIdx.bl) fun _ => Bl.pure
  refine Bl.errByte rfl rfl ?_
  rintro t ⟨ty, ht⟩
  cases ht
  exact h1 rfl

theorem ExternType.bl : Bl acc (ExternType.decode : Dec R _ _) := by
  refine Bl.byteT (fun _ => rfl) fun b => ?_
  refine Bl.ite (fun _ => ?_) fun h1 => Bl.ite (fun _ => ?_) fun h2 => Bl.ite (fun _ => ?_) fun h3 =>
    Bl.ite (fun _ => ?_) fun h4 => Bl.ite (fun _ => ?_) fun h5 => ?_
  · exact Bl.bind (bmap TypeIdx.bl) fun _ => Bl.pure
  · exact Bl.bind (bmap TableType.bl) fun _ => Bl.pure
  · exact Bl.bind (bmap memType_bl) fun _ => Bl.pure
  · exact Bl.bind (bmap GlobalType.bl) fun _ => Bl.pure
  · exact Bl.bind (bmap TagType.bl) fun _ => Bl.pure
  · refine Bl.errByte rfl rfl ?_
    rintro t ⟨ty, ht⟩
    cases ht with
    | func => exact h1 rfl
    | table => exact h2 rfl
    | mem => exact h3 rfl
    | global => exact h4 rfl
    | tag => exact h5 rfl

end Wadec
