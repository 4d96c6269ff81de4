import Verif.Proof.MarkTypes

/-! C41: complaints about instructions. -/

namespace Wadec

open Wadec.Spec LawfulRead MarkOf

variable {R : Type} [LawfulRead R] {acc : Bytes}

theorem Memarg.bl : Bl acc (Memarg.decode : Dec R _ _) := by
  refine Bl.bindT (Sound.mapErr decodeU32_sound) (bmap u32_bl) fun n bs hn => ?_
  refine Bl.ite (fun _ => Bl.bind (bmap u64_bl) fun _ => Bl.pure) fun h1 => Bl.ite (fun _ =>
    Bl.bind (bmap MemIdx.bl) fun _ => Bl.bind (bmap u64_bl) fun _ => Bl.pure) fun h2 => ?_
  refine Bl.err ?_
  rintro m ⟨⟩
  refine ⟨acc, bs, rfl, ?_, hn, ?_⟩
  · rintro rfl
    exact BU.nonempty hn
  rintro t ⟨ma, hm⟩
  obtain ⟨r', hr', _⟩ := Memarg.runs (R := Src) hm (Src.ofBytes (bs ++ t)) [] (by rw [avail_ofBytes]; simp)
  have hf : Fails (R := Src) Memarg.decode (bs ++ []) (.InvalidFlagsBit n) :=
    Fails.bind2 (Runs.mapErr (decodeU32_runs hn)) (Fails.ite_neg h1 (Fails.ite_neg h2 Fails.err))
  obtain ⟨r2, hr2⟩ := hf (Src.ofBytes (bs ++ t)) t (by rw [avail_ofBytes]; simp)
  rw [hr'] at hr2
  cases hr2

theorem LaneIdx.bl : Bl acc (LaneIdx.decode : Dec R _ _) :=
  Bl.bind (bmap byte_bl) fun _ => Bl.pure

theorem notVal_val {b : UInt8} {bs : Bytes} {t : ValType} (hb : NotVal b) : ¬ BValType (b :: bs) t := by
  intro h
  obtain ⟨r', h1, _⟩ := ValType.runs (R := Src) h (Src.ofBytes (b :: bs)) [] (by rw [avail_ofBytes]; simp)
  obtain ⟨e, r2, h2, _⟩ := ValType.failsAt (R := Src) hb (Src.ofBytes (b :: bs)) bs (by rw [avail_ofBytes]; simp)
  rw [h1] at h2
  cases h2

theorem blockIdx_justified {b : UInt8} {bs : Bytes} {x : Int64} {m : Mark} (h40 : b ≠ 0x40)
    (hb : NotVal b) (hx : BS33 (b :: bs) x) (hneg : x.toInt < 0)
    (hm : mark (BlockTypeError.NegativeTypeIndex x) = some m) : m.Justified (b :: bs) := by
  simp only [mark] at hm
  split at hm
  · cases hm
    exact ⟨hx, fun t ⟨_, ht⟩ => not_index hx hneg ht⟩
  · cases hm
    refine ⟨hx, ?_⟩
    rintro t ⟨ty, ht⟩
    simp only [List.cons_append] at ht
    generalize hbs : b :: (bs ++ t) = bs' at ht
    cases ht with
    | empty => exact h40 (List.cons.inj hbs).1
    | val h => subst hbs; exact notVal_val hb h
    | idx h => subst hbs; exact not_index hx hneg h

theorem BlockType.bl : Bl acc (BlockType.decode : Dec R _ _) := by
  refine Bl.any (Bl.byteT (fun _ => rfl) fun b => Bl.ite (fun _ => Bl.pure) fun h40 => ?_)
  refine ⟨(Sound.withChainAt (fun r rest v r' ha h => blockInner_sound r rest v r' ha h)
    (fun _ => BBlockType.nonempty)).mono fun _ _ _ => trivial, ?_⟩
  intro r e r' m he hm
  obtain ⟨c, hc, he0⟩ := Dec.withChain_err he
  subst hc
  clear he
  have he := he0
  clear he0
  have hav : avail ({ first := [b], inner := r } : Chain R) = b :: avail r := by simp [avail]
  simp only [Dec.orElseDiscard] at he
  rcases hv : ValType.decode ({ first := [b], inner := r } : Chain R) with ⟨res, c1⟩
  rw [hv] at he
  cases res with
  | ok v => cases he
  | panic => cases he
  | fuel => cases he
  | err e1 =>
    simp only at he
    rcases byte_classes b with hb | ⟨t, hb⟩ | hb
    · obtain ⟨_, _, h1, h2⟩ := ValType.failsAt hb _ _ hav
      rw [hv] at h1
      cases h1
      obtain ⟨cc, hcc, he2⟩ := Dec.withChain_err he
      subst hcc
      rcases Dec.bind_err he2 with he | ⟨x, r2, h3, he⟩
      · obtain ⟨e0, rfl, _⟩ := Dec.mapErr_err he
        cases e0 <;> cases hm
      · obtain ⟨bs, h4, h5⟩ := decodeS33_sound _ _ _ (Dec.mapErr_ok h3)
        have hne : bs ≠ [] := by rintro rfl; exact BS.nonempty h5
        split at he
        · rename_i hneg
          cases he
          obtain ⟨b2, rfl, h6⟩ := chain_adv hne h4
          obtain ⟨b3, h7, h8⟩ := chain_adv (by simp) (adv_trans h2 h6)
          obtain rfl : b2 = b3 := by simpa using h7
          exact ⟨[], b :: b2, blockIdx_justified h40 hb h5 hneg hm, by simp,
            fun _ => ⟨b2, h8, rfl⟩, avail cc.inner.inner, by rw [adv_avail h8]; simp⟩
        · rcases Dec.bind_err he with he | ⟨_, _, _, he⟩
          · unfold i64ToU32 at he
            split at he <;> cases he
          · cases he
    · obtain ⟨_, h1, _⟩ := ValType.runs hb _ _ hav
      rw [hv] at h1
      cases h1
    · have key : ∀ x : Int64, Fails (R := Chain (Chain R)) blockTypeIndex [b] (.NegativeTypeIndex x) →
          BS33 [b] x → x.toInt < 0 → (x = -29 ∨ x = -28) → Located ([] ++ [b]) m r c.inner := by
        intro x hf hx hneg hxx
        obtain ⟨_, h1⟩ := Fails.withChain (bs := []) hf c1 (avail c1) (by simp)
        rw [he] at h1
        cases h1
        simp only [mark, if_pos hxx, Option.some.injEq] at hm
        subst hm
        exact ⟨[], [b], ⟨hx, fun t ⟨_, ht⟩ => not_index hx hneg ht⟩, by simp, fun h => h.elim,
          avail r, by simp⟩
      rcases hb with rfl | rfl
      · exact key _ blockTypeIndex_fails63 (BS.neg (n := 0x63) (by decide) (by decide) (by decide))
          (by decide) (.inl rfl)
      · exact key _ blockTypeIndex_fails64 (BS.neg (n := 0x64) (by decide) (by decide) (by decide))
          (by decide) (.inr rfl)

theorem Catch.bl : Bl acc (Catch.decode : Dec R _ _) := by
  refine Bl.byteT (fun _ => rfl) fun b => ?_
  refine Bl.ite (fun _ => ?_) fun h1 => Bl.ite (fun _ => ?_) fun h2 => Bl.ite (fun _ => ?_) fun h3 =>
    Bl.ite (fun _ => ?_) fun h4 => ?_
  · exact Bl.bind (bmap TagIdx.bl) fun _ => Bl.bind (bmap LabelIdx.bl) fun _ => Bl.pure
  · exact Bl.bind (bmap TagIdx.bl) fun _ => Bl.bind (bmap LabelIdx.bl) fun _ => Bl.pure
  · exact Bl.bind (bmap LabelIdx.bl) fun _ => Bl.pure
  · exact Bl.bind (bmap LabelIdx.bl) fun _ => Bl.pure
  · refine Bl.errByte rfl rfl ?_
    rintro t ⟨ty, ht⟩
    cases ht with
    | «catch» => exact h1 rfl
    | catchRef => exact h2 rfl
    | catchAll => exact h3 rfl
    | catchAllRef => exact h4 rfl

theorem castop_bl : Bl acc (decodeCastop : Dec R _ _) := by
  refine Bl.byteT (fun _ => rfl) fun b => ?_
  refine Bl.ite (fun _ => Bl.pure) fun h1 => Bl.ite (fun _ => Bl.pure) fun h2 =>
    Bl.ite (fun _ => Bl.pure) fun h3 => Bl.ite (fun _ => Bl.pure) fun h4 => ?_
  refine Bl.errByte rfl rfl ?_
  rintro t ⟨ty, ht⟩
  cases ht with
  | nn => exact h1 rfl
  | yn => exact h2 rfl
  | ny => exact h3 rfl
  | yy => exact h4 rfl

/-! ### Instructions without blocks -/

theorem aggType_bl : Bl acc (aggType : Dec R _ _) := bmap TypeIdx.bl
theorem aggField_bl : Bl acc (aggField : Dec R _ _) := bmap u32_bl
theorem aggLen_bl : Bl acc (aggLen : Dec R _ _) := bmap u32_bl
theorem aggData_bl : Bl acc (aggData : Dec R _ _) := bmap DataIdx.bl
theorem aggElem_bl : Bl acc (aggElem : Dec R _ _) := bmap ElemIdx.bl
theorem refHeap_bl : Bl acc (refHeap : Dec R _ _) := bmap HeapType.bl
theorem ctlHeap_bl : Bl acc (ctlHeap : Dec R _ _) := bmap HeapType.bl
theorem ctlLabel_bl : Bl acc (ctlLabel : Dec R _ _) := bmap LabelIdx.bl
theorem ctlFunc_bl : Bl acc (ctlFunc : Dec R _ _) := bmap FuncIdx.bl
theorem ctlType_bl : Bl acc (ctlType : Dec R _ _) := bmap TypeIdx.bl
theorem ctlTable_bl : Bl acc (ctlTable : Dec R _ _) := bmap TableIdx.bl
theorem tabTable_bl : Bl acc (tabTable : Dec R _ _) := bmap TableIdx.bl
theorem tabElem_bl : Bl acc (tabElem : Dec R _ _) := bmap ElemIdx.bl
theorem memMem_bl : Bl acc (memMem : Dec R _ _) := bmap MemIdx.bl
theorem memData_bl : Bl acc (memData : Dec R _ _) := bmap DataIdx.bl
theorem varLocal_bl : Bl acc (varLocal : Dec R _ _) := bmap LocalIdx.bl
theorem varGlobal_bl : Bl acc (varGlobal : Dec R _ _) := bmap GlobalIdx.bl
theorem vecMemarg_bl : Bl acc (vecMemarg : Dec R _ _) := bmap Memarg.bl
theorem vecLane_bl : Bl acc (vecLane : Dec R _ _) := bmap LaneIdx.bl
theorem castopP_bl : Bl acc (decodeCastop.mapErr ParseError.Control : Dec R _ _) := bmap castop_bl
theorem vecBytes_bl : Bl acc (vecBytes : Dec R _ _) := by
  refine Bl.bind (bmap (io_bl Sound.readExact)) fun buf => ?_
  split
  · exact Bl.pure
  · exact Bl.panic

/-- one step of a proof for an arm without complaints of its own -/
macro "bstep" : tactic => `(tactic| with_reducible first
  | exact Bl.pure | exact Bl.panic
  | exact aggType_bl | exact aggField_bl | exact aggLen_bl | exact aggData_bl | exact aggElem_bl
  | exact refHeap_bl | exact ctlHeap_bl | exact ctlLabel_bl | exact ctlFunc_bl | exact ctlType_bl
  | exact ctlTable_bl | exact tabTable_bl | exact tabElem_bl | exact memMem_bl | exact memData_bl
  | exact varLocal_bl | exact varGlobal_bl | exact vecMemarg_bl | exact vecLane_bl
  | exact castopP_bl | exact vecBytes_bl
  | refine Bl.bind ?_ (fun _ => ?_)
  | refine Bl.ite (fun _ => ?_) (fun _ => ?_)
  | split)

theorem fb_unassigned {op : UInt32}
    (h : (parseFB op : Dec Src ParseError Instr) = Dec.err (.InvalidMarkerByteAfterFB op)) :
    Unassigned (.fb op.toNat) := by
  rintro ⟨imms, i, hl⟩
  obtain ⟨_, h1, _⟩ := parseFB_runs (R := Src) hl (Src.ofBytes imms) [] (by rw [avail_ofBytes]; simp)
  rw [h] at h1
  cases h1

theorem fc_unassigned {op : UInt32}
    (h : (parseFC op : Dec Src ParseError Instr) = Dec.err (.InvalidMarkerByteAfterFC op)) :
    Unassigned (.fc op.toNat) := by
  rintro ⟨imms, i, hl⟩
  obtain ⟨_, h1, _⟩ := parseFC_runs (R := Src) hl (Src.ofBytes imms) [] (by rw [avail_ofBytes]; simp)
  rw [h] at h1
  cases h1

theorem fd_unassigned {op : UInt32}
    (h : (parseFD op : Dec Src ParseError Instr) = Dec.err (.Vector (.InvalidOpcode op))) :
    Unassigned (.fd op.toNat) := by
  rintro ⟨imms, i, hl⟩
  obtain ⟨_, h1, _⟩ := parseFD_runs (R := Src) hl (Src.ofBytes imms) [] (by rw [avail_ofBytes]; simp)
  rw [h] at h1
  cases h1

/-- Nothing starts with bytes on which `Instruction::parse` fails. -/
theorem fails_sort {op : Opcode} {enc : Bytes} {e : ParseError}
    (h : ∀ n, 0 < n → Fails (R := Src) (parse n) enc e) (t : Bytes) :
    ¬ (Mark.opcode op).Sort (enc ++ t) := by
  have no : ∀ n, 0 < n → ∀ v bs s, bs ++ s = enc ++ t → ¬ Runs (R := Src) (parse n) bs v := by
    intro n hn v bs s hbs hr
    obtain ⟨_, h1, _⟩ := hr (Src.ofBytes (enc ++ t)) s (by rw [avail_ofBytes, hbs])
    obtain ⟨_, h2⟩ := h n hn (Src.ofBytes (enc ++ t)) t (by rw [avail_ofBytes])
    rw [h1] at h2
    cases h2
  rintro (⟨i, hi⟩ | ⟨s, hs⟩ | ⟨s, hs⟩)
  · exact no ((enc ++ t).length) (Wadec.BInstr.length_pos hi) _ _ [] (by simp)
      (parse_runs _ _ _ hi (Nat.le_refl _))
  · exact no 1 (by omega) _ [0x0B] s (by simpa using hs.symm) (parse_end 0)
  · exact no 1 (by omega) _ [0x05] s (by simpa using hs.symm) (parse_else 0)

theorem parseFB_bl {op : UInt32} {bs : Bytes} (hb : BU32 bs op) :
    Bl ([0xFB] ++ bs) (parseFB op : Dec R _ _) := by
  have key : ∀ e : ParseError, e = .InvalidMarkerByteAfterFB op →
      (parseFB op : Dec Src ParseError Instr) = Dec.err e →
      Bl ([0xFB] ++ bs) (Dec.err e : Dec R ParseError Instr) := by
    rintro _ rfl h
    refine Bl.err ?_
    rintro m ⟨⟩
    exact ⟨[], 0xFB :: bs, rfl, by simp, BOpcode.fb hb, fails_sort (parse_fb_fails hb (fb_unassigned h))⟩
  unfold parseFB
  iterate 19 (refine Bl.ite (fun _ => by repeat' bstep) fun _ => ?_)
  refine Bl.ite (fun _ => by repeat' bstep) fun _ => ?_
  refine Bl.ite (fun _ => by repeat' bstep) fun _ => ?_
  split
  · exact Bl.pure
  · rename_i hl
    refine key _ rfl ?_
    unfold parseFB
    repeat (refine (if_neg (by assumption)).trans ?_)
    rw [hl]

theorem parseFC_bl {op : UInt32} {bs : Bytes} (hb : BU32 bs op) :
    Bl ([0xFC] ++ bs) (parseFC op : Dec R _ _) := by
  have key : ∀ e : ParseError, e = .InvalidMarkerByteAfterFC op →
      (parseFC op : Dec Src ParseError Instr) = Dec.err e →
      Bl ([0xFC] ++ bs) (Dec.err e : Dec R ParseError Instr) := by
    rintro _ rfl h
    refine Bl.err ?_
    rintro m ⟨⟩
    exact ⟨[], 0xFC :: bs, rfl, by simp, BOpcode.fc hb, fails_sort (parse_fc_fails hb (fc_unassigned h))⟩
  unfold parseFC
  iterate 10 (refine Bl.ite (fun _ => by repeat' bstep) fun _ => ?_)
  split
  · exact Bl.pure
  · rename_i hl
    refine key _ rfl ?_
    unfold parseFC
    repeat (refine (if_neg (by assumption)).trans ?_)
    rw [hl]

theorem parseFD_bl {op : UInt32} {bs : Bytes} (hb : BU32 bs op) :
    Bl ([0xFD] ++ bs) (parseFD op : Dec R _ _) := by
  have key : ∀ e : ParseError, e = .Vector (.InvalidOpcode op) →
      (parseFD op : Dec Src ParseError Instr) = Dec.err e →
      Bl ([0xFD] ++ bs) (Dec.err e : Dec R ParseError Instr) := by
    rintro _ rfl h
    refine Bl.err ?_
    rintro m ⟨⟩
    exact ⟨[], 0xFD :: bs, rfl, by simp, BOpcode.fd hb, fails_sort (parse_fd_fails hb (fd_unassigned h))⟩
  unfold parseFD
  iterate 5 (refine Bl.ite (fun _ => by repeat' bstep) fun _ => ?_)
  split
  · exact Bl.pure
  · rename_i hl
    refine key _ rfl ?_
    unfold parseFD
    repeat (refine (if_neg (by assumption)).trans ?_)
    rw [hl]

theorem parseSimple_bl {op : UInt8}
    (h : ¬ op = 0x0B ∧ ¬ op = 0x05 ∧ ¬ (0x02 ≤ op ∧ op ≤ 0x04) ∧ ¬ op = 0x1F) :
    Bl [op] (parseSimple op : Dec R _ _) := by
  have key : ∀ e : ParseError, e = .InvalidOpcode op →
      (parseSimple op : Dec Src ParseError Instr) = Dec.err e →
      Bl [op] (Dec.err e : Dec R ParseError Instr) := by
    rintro _ rfl hp
    refine Bl.err ?_
    rintro m ⟨⟩
    refine ⟨[], [op], rfl, by simp, .byte, fails_sort (e := .InvalidOpcode op) ?_⟩
    intro n hn
    match n, hn with
    | n + 1, _ =>
      refine Fails.bind2 (b1 := [op]) (b2 := []) (Runs.mapErr (Runs.readExact rfl)) ?_
      refine Fails.ite_neg h.1 (Fails.ite_neg h.2.1 (Fails.ite_neg h.2.2.1 (Fails.ite_neg h.2.2.2 ?_)))
      rw [hp]
      exact Fails.bind1 Fails.err
  unfold parseSimple
  refine Bl.ite (fun _ => Bl.pure) fun _ => ?_
  refine Bl.ite (fun _ => Bl.bind (bmap (list_bl ValType.bl)) fun _ => Bl.pure) fun _ => ?_
  refine Bl.ite (fun _ => Bl.bind (bmap TagIdx.bl) fun _ => Bl.pure) fun _ => ?_
  iterate 2 (refine Bl.ite (fun _ => by repeat' bstep) fun _ => ?_)
  refine Bl.ite (fun _ => Bl.bind (bmap (list_bl LabelIdx.bl)) fun _ => by repeat' bstep) fun _ => ?_
  iterate 9 (refine Bl.ite (fun _ => by repeat' bstep) fun _ => ?_)
  refine Bl.ite (fun _ => Bl.bind (bmap FuncIdx.bl) fun _ => Bl.pure) fun _ => ?_
  refine Bl.ite (fun ho => ?_) fun _ => ?_
  · subst ho
    exact Bl.bindT (Sound.mapErr decodeU32_sound) (bmap u32_bl) fun _ _ hb => parseFB_bl hb
  iterate 7 (refine Bl.ite (fun _ => by repeat' bstep) fun _ => ?_)
  refine Bl.ite (fun _ => Bl.bind (bmap Memarg.bl) fun _ => by repeat' bstep) fun _ => ?_
  iterate 2 (refine Bl.ite (fun _ => by repeat' bstep) fun _ => ?_)
  refine Bl.ite (fun _ => Bl.bind (bmap i32_bl) fun _ => Bl.pure) fun _ => ?_
  refine Bl.ite (fun _ => Bl.bind (bmap i64_bl) fun _ => Bl.pure) fun _ => ?_
  refine Bl.ite (fun _ => Bl.bind (bmap f32_bl) fun _ => Bl.pure) fun _ => ?_
  refine Bl.ite (fun _ => Bl.bind (bmap f64_bl) fun _ => Bl.pure) fun _ => ?_
  refine Bl.ite (fun ho => ?_) fun _ => ?_
  · subst ho
    exact Bl.bindT (Sound.mapErr decodeU32_sound) (bmap u32_bl) fun _ _ hb => parseFC_bl hb
  refine Bl.ite (fun ho => ?_) fun _ => ?_
  · subst ho
    exact Bl.bindT (Sound.mapErr decodeU32_sound) (bmap u32_bl) fun _ _ hb => parseFD_bl hb
  split
  · exact Bl.pure
  · rename_i hl
    refine key _ rfl ?_
    unfold parseSimple
    repeat (refine (if_neg (by assumption)).trans ?_)
    rw [hl]

/-! ### Instructions, expressions -/

theorem parseSeq_bl {p : Dec R ParseError ParseResult} (hp : Bl [] p) :
    ∀ (n : Nat) (ae : Bool) (is : List Instr), Bl [] (parseSeq p n ae is)
  | 0, _, _ => Bl.outOfFuel
  | n + 1, ae, is => by
    refine Bl.bind hp fun res => ?_
    cases res with
    | Instruction i => exact parseSeq_bl hp n ae _
    | End => exact Bl.pure
    | Else => exact Bl.ite (fun _ => Bl.pure) fun _ => Bl.errNone rfl

theorem parse_bl : ∀ n, Bl [] (parse n : Dec R _ _)
  | 0 => Bl.outOfFuel
  | n + 1 => by
    refine Bl.bindT (Sound.mapErr Sound.readExact) (bmap (io_bl Sound.readExact)) ?_
    rintro buf bs ⟨rfl, hl⟩
    match bs, hl with
    | [op], _ =>
      refine Bl.ite (fun _ => Bl.pure) fun h1 => Bl.ite (fun _ => Bl.pure) fun h2 =>
        Bl.ite (fun _ => ?_) fun h3 => Bl.ite (fun _ => ?_) fun h4 => ?_
      · refine Bl.bind (bmap BlockType.bl) fun _ => ?_
        refine Bl.bind (parseSeq_bl (parse_bl n) _ _ _) ?_
        rintro ⟨in1, parsed⟩
        refine Bl.ite (fun _ => Bl.pure) fun _ => Bl.ite (fun _ => Bl.pure) fun _ =>
          Bl.ite (fun _ => ?_) fun _ => Bl.panic
        cases parsed with
        | Instruction => exact Bl.panic
        | End => exact Bl.pure
        | Else =>
          refine Bl.bind (parseSeq_bl (parse_bl n) _ _ _) ?_
          rintro ⟨in2, _⟩
          exact Bl.pure
      · refine Bl.bind (bmap BlockType.bl) fun _ => Bl.bind (bmap (list_bl Catch.bl)) fun _ => ?_
        refine Bl.bind (parseSeq_bl (parse_bl n) _ _ _) ?_
        rintro ⟨ins, _⟩
        exact Bl.pure
      · exact Bl.bindT (parseSimple_bl ⟨h1, h2, h3, h4⟩).1 (parseSimple_bl ⟨h1, h2, h3, h4⟩)
          fun _ _ _ => Bl.pure

theorem exprLoop_bl {p : Dec R ParseError ParseResult} (hp : Bl [] p) :
    ∀ (n : Nat) (is : List Instr) (d : Bool), Bl [] (decodeExprLoop p n is d)
  | 0, _, _ => Bl.outOfFuel
  | n + 1, is, d => by
    refine Bl.bind (bmap hp) fun res => ?_
    cases res with
    | Instruction i => exact exprLoop_bl hp n _ _
    | End => exact Bl.pure
    | Else => exact Bl.errNone rfl

theorem expr_bl : Bl acc (decodeExpr : Dec R _ _) := by
  refine Bl.any ⟨expr_sound.mono fun _ _ _ => trivial, ?_⟩
  intro r e r' m he hm
  exact (exprLoop_bl (parse_bl _) _ _ _).2 r e r' m he hm

end Wadec
