import Verif.Proof.Tables

/-! Instructions that contain no other instructions. -/

namespace Wadec

open LawfulRead Spec

variable {R S : Type} [LawfulRead R] [LawfulRead S] {L : Nat}

/-- one immediate, after which the instruction is complete -/
local macro "snd1" t:term:max c:term:max : tactic =>
  `(tactic| (intro ho; subst ho; exact Sound.bind (Sound.mapErr $t) fun _ _ h => Sound.pure (by simpa using $c h)))
/-- two immediates -/
local macro "snd2" t:term:max u:term:max c:term:max : tactic =>
  `(tactic| (intro ho; subst ho; exact Sound.bind (Sound.mapErr $t) fun _ _ h1 =>
      Sound.bind (Sound.mapErr $u) fun _ _ h2 => Sound.pure (by simpa using $c h1 h2)))

theorem parseFB_sound (op : UInt32) :
    Sound (R := R) (parseFB op) (fun bs i => Leaf (.fb op.toNat) bs i) := by
  unfold parseFB
  refine Sound.ite ?_ fun _ => Sound.ite ?_ fun _ => Sound.ite ?_ fun _ => Sound.ite ?_ fun _ =>
    Sound.ite ?_ fun _ => Sound.ite ?_ fun _ => Sound.ite ?_ fun _ => Sound.ite ?_ fun _ =>
    Sound.ite ?_ fun _ => Sound.ite ?_ fun _ => Sound.ite ?_ fun _ => Sound.ite ?_ fun _ =>
    Sound.ite ?_ fun _ => Sound.ite ?_ fun _ => Sound.ite ?_ fun _ => Sound.ite ?_ fun _ =>
    Sound.ite ?_ fun _ => Sound.ite ?_ fun _ => Sound.ite ?_ fun _ => Sound.ite ?_ fun _ =>
    Sound.ite ?_ fun _ => ?_
  · snd1 TypeIdx.sound Leaf.structNew
  · snd1 TypeIdx.sound Leaf.structNewDefault
  · snd2 TypeIdx.sound decodeU32_sound Leaf.structGet
  · snd2 TypeIdx.sound decodeU32_sound Leaf.structGetS
  · snd2 TypeIdx.sound decodeU32_sound Leaf.structGetU
  · snd2 TypeIdx.sound decodeU32_sound Leaf.structSet
  · snd1 TypeIdx.sound Leaf.arrayNew
  · snd1 TypeIdx.sound Leaf.arrayNewDefault
  · snd2 TypeIdx.sound decodeU32_sound Leaf.arrayNewFixed
  · snd2 TypeIdx.sound DataIdx.sound Leaf.arrayNewData
  · snd2 TypeIdx.sound ElemIdx.sound Leaf.arrayNewElem
  · snd1 TypeIdx.sound Leaf.arrayGet
  · snd1 TypeIdx.sound Leaf.arrayGetS
  · snd1 TypeIdx.sound Leaf.arrayGetU
  · snd1 TypeIdx.sound Leaf.arraySet
  · snd1 TypeIdx.sound Leaf.arrayFill
  · snd2 TypeIdx.sound TypeIdx.sound Leaf.arrayCopy
  · snd2 TypeIdx.sound DataIdx.sound Leaf.arrayInitData
  · snd2 TypeIdx.sound ElemIdx.sound Leaf.arrayInitElem
  · intro _
    refine Sound.bind (Sound.mapErr HeapType.sound) fun ht b h => ?_
    refine Sound.ite ?_ fun _ => Sound.ite ?_ fun _ => Sound.ite ?_ fun _ => Sound.ite ?_ fun _ => Sound.panic
    · rintro rfl; exact Sound.pure (by simpa using Leaf.refTest h)
    · rintro rfl; exact Sound.pure (by simpa using Leaf.refTestNull h)
    · rintro rfl; exact Sound.pure (by simpa using Leaf.refCast h)
    · rintro rfl; exact Sound.pure (by simpa using Leaf.refCastNull h)
  · intro ho
    refine Sound.bind (Sound.mapErr castop_sound) ?_
    rintro ⟨n1, n2⟩ b0 h0
    refine Sound.bind (Sound.mapErr LabelIdx.sound) fun l b1 h1 => ?_
    refine Sound.bind (Sound.mapErr HeapType.sound) fun ht1 b2 h2 => ?_
    refine Sound.bind (Sound.mapErr HeapType.sound) fun ht2 b3 h3 => ?_
    refine Sound.ite ?_ fun hn => ?_
    · rintro rfl; exact Sound.pure (by simpa using Leaf.brOnCast h0 h1 h2 h3)
    · obtain rfl : op = 25 := by simpa [hn] using ho
      exact Sound.pure (by simpa using Leaf.brOnCastFail h0 h1 h2 h3)
  · split
    · rename_i p hp
      rw [← plainFB_ok _ (lookup_mem hp)]
      exact Sound.pure Leaf.plain
    · exact Sound.err

theorem parseFC_sound (op : UInt32) :
    Sound (R := R) (parseFC op) (fun bs i => Leaf (.fc op.toNat) bs i) := by
  unfold parseFC
  refine Sound.ite ?_ fun _ => Sound.ite ?_ fun _ => Sound.ite ?_ fun _ => Sound.ite ?_ fun _ =>
    Sound.ite ?_ fun _ => Sound.ite ?_ fun _ => Sound.ite ?_ fun _ => Sound.ite ?_ fun _ =>
    Sound.ite ?_ fun _ => Sound.ite ?_ fun _ => ?_
  · snd2 DataIdx.sound MemIdx.sound Leaf.memoryInit
  · snd1 DataIdx.sound Leaf.dataDrop
  · snd2 MemIdx.sound MemIdx.sound Leaf.memoryCopy
  · snd1 MemIdx.sound Leaf.memoryFill
  · snd2 ElemIdx.sound TableIdx.sound Leaf.tableInit
  · snd1 ElemIdx.sound Leaf.elemDrop
  · snd2 TableIdx.sound TableIdx.sound Leaf.tableCopy
  · snd1 TableIdx.sound Leaf.tableGrow
  · snd1 TableIdx.sound Leaf.tableSize
  · snd1 TableIdx.sound Leaf.tableFill
  · split
    · rename_i p hp
      rw [← plainFC_ok _ (lookup_mem hp)]
      exact Sound.pure Leaf.plain
    · exact Sound.err

theorem parseFD_sound (op : UInt32) :
    Sound (R := R) (parseFD op) (fun bs i => Leaf (.fd op.toNat) bs i) := by
  unfold parseFD
  refine Sound.ite (fun _ => ?_) fun _ => Sound.ite (fun _ => ?_) fun _ => Sound.ite ?_ fun _ =>
    Sound.ite ?_ fun _ => Sound.ite (fun _ => ?_) fun _ => ?_
  · refine Sound.bind (Sound.mapErr Memarg.sound) fun m b h => ?_
    split
    · rename_i p hp
      rw [← memFD_ok _ (lookup_mem hp)]
      exact Sound.pure (by simpa using Leaf.mem h)
    · exact Sound.panic
  · refine Sound.bind (Sound.mapErr Memarg.sound) fun m b h => ?_
    refine Sound.bind (Sound.mapErr LaneIdx.sound) fun l b2 h2 => ?_
    split
    · rename_i p hp
      rw [← memLaneFD_ok _ (lookup_mem hp)]
      exact Sound.pure (by simpa using Leaf.memLane h h2)
    · exact Sound.panic
  · rintro rfl
    refine Sound.bind vecBytes_sound ?_
    rintro v _ rfl
    exact Sound.pure (by simpa using Leaf.v128Const)
  · rintro rfl
    refine Sound.bind vecBytes_sound ?_
    rintro v _ rfl
    exact Sound.pure (by simpa using Leaf.i8x16Shuffle)
  · refine Sound.bind (Sound.mapErr LaneIdx.sound) fun l b2 h2 => ?_
    split
    · rename_i p hp
      rw [← laneFD_ok _ (lookup_mem hp)]
      exact Sound.pure (by simpa using Leaf.lane h2)
    · exact Sound.panic
  · split
    · rename_i p hp
      rw [← plainFD_ok _ (lookup_mem hp)]
      exact Sound.pure Leaf.plain
    · exact Sound.err

/-- `bs` is an opcode followed by immediates. -/
def LeafEnc (bs : Bytes) (i : Instr) : Prop :=
  ∃ b imms o, bs = b ++ imms ∧ BOpcode b o ∧ Leaf o imms i

theorem LeafEnc.byte {b : UInt8} {imms : Bytes} {i : Instr} (h : Leaf (.byte b) imms i) :
    LeafEnc (b :: imms) i := ⟨[b], imms, _, rfl, .byte, h⟩

/-- one immediate after a one-byte opcode -/
local macro "sb1" t:term:max c:term:max : tactic =>
  `(tactic| (intro ho; subst ho; exact Sound.bind (Sound.mapErr $t) fun _ _ h =>
    Sound.pure (by simpa using LeafEnc.byte ($c h))))
local macro "sb2" t:term:max u:term:max c:term:max : tactic =>
  `(tactic| (intro ho; subst ho; exact Sound.bind (Sound.mapErr $t) fun _ _ h1 =>
      Sound.bind (Sound.mapErr $u) fun _ _ h2 =>
    Sound.pure (by simpa using LeafEnc.byte ($c h1 h2))))

theorem parseSimple_sound (op : UInt8) :
    Sound (R := R) (parseSimple op) (fun bs i => LeafEnc (op :: bs) i) := by
  unfold parseSimple
  refine Sound.ite ?_ fun _ => Sound.ite ?_ fun _ => Sound.ite ?_ fun _ => Sound.ite ?_ fun _ =>
    Sound.ite ?_ fun _ => Sound.ite ?_ fun _ => Sound.ite ?_ fun _ => Sound.ite ?_ fun _ =>
    Sound.ite ?_ fun _ => Sound.ite ?_ fun _ => Sound.ite ?_ fun _ => Sound.ite ?_ fun _ =>
    Sound.ite ?_ fun _ => Sound.ite ?_ fun _ => Sound.ite ?_ fun _ => Sound.ite ?_ fun _ =>
    Sound.ite ?_ fun _ => Sound.ite ?_ fun _ => Sound.ite ?_ fun _ => Sound.ite ?_ fun _ =>
    Sound.ite ?_ fun _ => Sound.ite ?_ fun _ => Sound.ite ?_ fun _ => Sound.ite ?_ fun _ =>
    Sound.ite ?_ fun _ => Sound.ite ?_ fun _ => Sound.ite ?_ fun _ => Sound.ite ?_ fun _ =>
    Sound.ite ?_ fun _ => Sound.ite ?_ fun _ => Sound.ite ?_ fun _ => Sound.ite ?_ fun _ =>
    Sound.ite ?_ fun _ => ?_
  · rintro rfl; exact Sound.pure (LeafEnc.byte .select)
  · sb1 (list_sound ValType.sound) Leaf.selectT
  · sb1 TagIdx.sound Leaf.throw
  · sb1 LabelIdx.sound Leaf.br
  · sb1 LabelIdx.sound Leaf.brIf
  · sb2 (list_sound LabelIdx.sound) LabelIdx.sound Leaf.brTable
  · sb1 FuncIdx.sound Leaf.call
  · sb2 TypeIdx.sound TableIdx.sound Leaf.callIndirect
  · sb1 FuncIdx.sound Leaf.returnCall
  · sb2 TypeIdx.sound TableIdx.sound Leaf.returnCallIndirect
  · sb1 TypeIdx.sound Leaf.callRef
  · sb1 TypeIdx.sound Leaf.returnCallRef
  · sb1 LabelIdx.sound Leaf.brOnNull
  · sb1 LabelIdx.sound Leaf.brOnNonNull
  · sb1 HeapType.sound Leaf.refNull
  · sb1 FuncIdx.sound Leaf.refFunc
  · rintro rfl
    exact Sound.bind (Sound.mapErr decodeU32_sound) fun n b h =>
      Sound.mono (parseFB_sound n) fun bs i hl => ⟨0xFB :: b, bs, _, rfl, .fb h, hl⟩
  · sb1 LocalIdx.sound Leaf.localGet
  · sb1 LocalIdx.sound Leaf.localSet
  · sb1 LocalIdx.sound Leaf.localTee
  · sb1 GlobalIdx.sound Leaf.globalGet
  · sb1 GlobalIdx.sound Leaf.globalSet
  · sb1 TableIdx.sound Leaf.tableGet
  · sb1 TableIdx.sound Leaf.tableSet
  · intro _
    refine Sound.bind (Sound.mapErr Memarg.sound) fun m b h => ?_
    split
    · rename_i p hp
      have h1 : Leaf (.byte op) b (.mem p m) := by
        rw [← mem_ok _ (lookup_mem hp)]
        exact Leaf.mem h
      exact Sound.pure (by simpa using LeafEnc.byte h1)
    · exact Sound.panic
  · sb1 MemIdx.sound Leaf.memorySize
  · sb1 MemIdx.sound Leaf.memoryGrow
  · sb1 decodeI32_sound Leaf.i32Const
  · sb1 decodeI64_sound Leaf.i64Const
  · sb1 decodeF32_sound Leaf.f32Const
  · sb1 decodeF64_sound Leaf.f64Const
  · rintro rfl
    exact Sound.bind (Sound.mapErr decodeU32_sound) fun n b h =>
      Sound.mono (parseFC_sound n) fun bs i hl => ⟨0xFC :: b, bs, _, rfl, .fc h, hl⟩
  · rintro rfl
    exact Sound.bind (Sound.mapErr decodeU32_sound) fun n b h =>
      Sound.mono (parseFD_sound n) fun bs i hl => ⟨0xFD :: b, bs, _, rfl, .fd h, hl⟩
  · split
    · rename_i p hp
      refine Sound.pure (LeafEnc.byte ?_)
      rw [← plainByte_ok _ (lookup_mem hp)]
      exact Leaf.plain
    · exact Sound.err

/-! ### Completeness -/

theorem opfb_inj {n : UInt32} {k : Nat} (h : Opcode.fb n.toNat = .fb k) : n = UInt32.ofNat k := by
  cases h; simp
theorem opfc_inj {n : UInt32} {k : Nat} (h : Opcode.fc n.toNat = .fc k) : n = UInt32.ofNat k := by
  cases h; simp
theorem opfd_inj {n : UInt32} {k : Nat} (h : Opcode.fd n.toNat = .fd k) : n = UInt32.ofNat k := by
  cases h; simp

/-- descend to the arm selected by a literal opcode -/
local macro "arm" : tactic =>
  `(tactic| repeat (first | refine Runs.ite_pos (by decide) ?_ | refine Runs.ite_neg (by decide) ?_))

local macro "rfb1" ho:ident t:term:max : tactic =>
  `(tactic| (have hh := opfb_inj $ho; subst hh; unfold parseFB; arm; exact Runs.bind_pure (Runs.mapErr $t)))
local macro "rfb2" ho:ident t:term:max u:term:max : tactic =>
  `(tactic| (have hh := opfb_inj $ho; subst hh; unfold parseFB; arm;
             exact Runs.bind (Runs.mapErr $t) (Runs.bind_pure (Runs.mapErr $u))))

theorem parseFB_runs {op : UInt32} {bs : Bytes} {i : Instr} (h : Leaf (.fb op.toNat) bs i) :
    Runs (R := R) (parseFB op) bs i := by
  generalize ho : Opcode.fb op.toNat = o at h
  cases h with
  | structNew h => rfb1 ho (TypeIdx.runs h)
  | structNewDefault h => rfb1 ho (TypeIdx.runs h)
  | structGet h1 h2 => rfb2 ho (TypeIdx.runs h1) (decodeU32_runs h2)
  | structGetS h1 h2 => rfb2 ho (TypeIdx.runs h1) (decodeU32_runs h2)
  | structGetU h1 h2 => rfb2 ho (TypeIdx.runs h1) (decodeU32_runs h2)
  | structSet h1 h2 => rfb2 ho (TypeIdx.runs h1) (decodeU32_runs h2)
  | arrayNew h => rfb1 ho (TypeIdx.runs h)
  | arrayNewDefault h => rfb1 ho (TypeIdx.runs h)
  | arrayNewFixed h1 h2 => rfb2 ho (TypeIdx.runs h1) (decodeU32_runs h2)
  | arrayNewData h1 h2 => rfb2 ho (TypeIdx.runs h1) (DataIdx.runs h2)
  | arrayNewElem h1 h2 => rfb2 ho (TypeIdx.runs h1) (ElemIdx.runs h2)
  | arrayGet h => rfb1 ho (TypeIdx.runs h)
  | arrayGetS h => rfb1 ho (TypeIdx.runs h)
  | arrayGetU h => rfb1 ho (TypeIdx.runs h)
  | arraySet h => rfb1 ho (TypeIdx.runs h)
  | arrayFill h => rfb1 ho (TypeIdx.runs h)
  | arrayCopy h1 h2 => rfb2 ho (TypeIdx.runs h1) (TypeIdx.runs h2)
  | arrayInitData h1 h2 => rfb2 ho (TypeIdx.runs h1) (DataIdx.runs h2)
  | arrayInitElem h1 h2 => rfb2 ho (TypeIdx.runs h1) (ElemIdx.runs h2)
  | refTest h =>
    obtain rfl := opfb_inj ho; unfold parseFB; arm
    exact Runs.bind_pure (f := fun ht => Instr.RefTest ⟨false, ht⟩) (Runs.mapErr (HeapType.runs h))
  | refTestNull h =>
    obtain rfl := opfb_inj ho; unfold parseFB; arm
    exact Runs.bind_pure (f := fun ht => Instr.RefTest ⟨true, ht⟩) (Runs.mapErr (HeapType.runs h))
  | refCast h =>
    obtain rfl := opfb_inj ho; unfold parseFB; arm
    exact Runs.bind_pure (f := fun ht => Instr.RefCast ⟨false, ht⟩) (Runs.mapErr (HeapType.runs h))
  | refCastNull h =>
    obtain rfl := opfb_inj ho; unfold parseFB; arm
    exact Runs.bind_pure (f := fun ht => Instr.RefCast ⟨true, ht⟩) (Runs.mapErr (HeapType.runs h))
  | brOnCast h0 h1 h2 h3 =>
    obtain rfl := opfb_inj ho; unfold parseFB; arm
    exact Runs.bind (Runs.mapErr (castop_runs h0)) (Runs.bind (Runs.mapErr (LabelIdx.runs h1))
      (Runs.bind (Runs.mapErr (HeapType.runs h2)) (Runs.bind_pure (Runs.mapErr (HeapType.runs h3)))))
  | brOnCastFail h0 h1 h2 h3 =>
    obtain rfl := opfb_inj ho; unfold parseFB; arm
    exact Runs.bind (Runs.mapErr (castop_runs h0)) (Runs.bind (Runs.mapErr (LabelIdx.runs h1))
      (Runs.bind (Runs.mapErr (HeapType.runs h2)) (Runs.bind_pure
        (f := fun ht2 => Instr.BrOnCastFail _ _ ⟨_, ht2⟩) (Runs.mapErr (HeapType.runs h3)))))
  | plain =>
    obtain ⟨h1, h2⟩ := plainFB_complete ho.symm
    rcases h2 with rfl | rfl | rfl | rfl | rfl | rfl <;>
      (unfold parseFB; arm; rw [h1]; exact Runs.pure)
  | @mem op => cases op <;> cases ho
  | @memLane op => cases op <;> cases ho
  | @lane op => cases op <;> cases ho
  | _ => cases ho

local macro "rfc1" ho:ident t:term:max : tactic =>
  `(tactic| (have hh := opfc_inj $ho; subst hh; unfold parseFC; arm; exact Runs.bind_pure (Runs.mapErr $t)))
local macro "rfc2" ho:ident t:term:max u:term:max : tactic =>
  `(tactic| (have hh := opfc_inj $ho; subst hh; unfold parseFC; arm;
             exact Runs.bind (Runs.mapErr $t) (Runs.bind_pure (Runs.mapErr $u))))

theorem parseFC_runs {op : UInt32} {bs : Bytes} {i : Instr} (h : Leaf (.fc op.toNat) bs i) :
    Runs (R := R) (parseFC op) bs i := by
  generalize ho : Opcode.fc op.toNat = o at h
  cases h with
  | memoryInit h1 h2 => rfc2 ho (DataIdx.runs h1) (MemIdx.runs h2)
  | dataDrop h => rfc1 ho (DataIdx.runs h)
  | memoryCopy h1 h2 => rfc2 ho (MemIdx.runs h1) (MemIdx.runs h2)
  | memoryFill h => rfc1 ho (MemIdx.runs h)
  | tableInit h1 h2 => rfc2 ho (ElemIdx.runs h1) (TableIdx.runs h2)
  | elemDrop h => rfc1 ho (ElemIdx.runs h)
  | tableCopy h1 h2 => rfc2 ho (TableIdx.runs h1) (TableIdx.runs h2)
  | tableGrow h => rfc1 ho (TableIdx.runs h)
  | tableSize h => rfc1 ho (TableIdx.runs h)
  | tableFill h => rfc1 ho (TableIdx.runs h)
  | plain =>
    obtain ⟨h1, h2⟩ := plainFC_complete ho.symm
    have hne : ∀ c : UInt32, 7 < c.toNat → op ≠ c := by
      rintro c hc rfl
      rw [UInt32.le_iff_toNat_le] at h2
      exact absurd h2 (by simpa using hc)
    unfold parseFC
    repeat refine Runs.ite_neg (hne _ (by decide)) ?_
    rw [h1]; exact Runs.pure
  | @mem op => cases op <;> cases ho
  | @memLane op => cases op <;> cases ho
  | @lane op => cases op <;> cases ho
  | _ => cases ho

theorem parseFD_runs {op : UInt32} {bs : Bytes} {i : Instr} (h : Leaf (.fd op.toNat) bs i) :
    Runs (R := R) (parseFD op) bs i := by
  generalize ho : Opcode.fd op.toNat = o at h
  cases h with
  | v128Const =>
    obtain rfl := opfd_inj ho; unfold parseFD; arm; exact Runs.bind_pure vecBytes_runs
  | i8x16Shuffle =>
    obtain rfl := opfd_inj ho; unfold parseFD; arm; exact Runs.bind_pure vecBytes_runs
  | @mem op m' b h =>
    obtain ⟨h1, h2⟩ := memFD_complete ho.symm
    unfold parseFD
    refine Runs.ite_pos h2 ?_
    rw [h1]
    exact Runs.bind_pure (Runs.mapErr (Memarg.runs h))
  | memLane h h' =>
    obtain ⟨h1, h2⟩ := memLaneFD_complete ho.symm
    unfold parseFD
    have h3 : ¬ (op ≤ 11 ∨ op = 92 ∨ op = 93) := by
      simp only [UInt32.le_iff_toNat_le, ← UInt32.toNat_inj] at h2 ⊢; simp at h2 ⊢; omega
    refine Runs.ite_neg h3 (Runs.ite_pos h2 ?_)
    rw [h1]
    exact Runs.bind (Runs.mapErr (Memarg.runs h)) (Runs.bind_pure (Runs.mapErr (LaneIdx.runs h')))
  | lane h =>
    obtain ⟨h1, h2⟩ := laneFD_complete ho.symm
    unfold parseFD
    have h3 : ¬ (op ≤ 11 ∨ op = 92 ∨ op = 93) ∧ ¬ (84 ≤ op ∧ op ≤ 91) ∧ ¬ op = 12 ∧ ¬ op = 13 := by
      simp only [UInt32.le_iff_toNat_le, ← UInt32.toNat_inj] at h2 ⊢; simp at h2 ⊢; omega
    refine Runs.ite_neg h3.1 (Runs.ite_neg h3.2.1 (Runs.ite_neg h3.2.2.1 (Runs.ite_neg h3.2.2.2
      (Runs.ite_pos h2 ?_))))
    rw [h1]
    exact Runs.bind_pure (Runs.mapErr (LaneIdx.runs h))
  | plain =>
    obtain ⟨h1, h2⟩ := plainFD_complete ho.symm
    have h3 : ¬ (op ≤ 11 ∨ op = 92 ∨ op = 93) ∧ ¬ (84 ≤ op ∧ op ≤ 91) ∧ ¬ op = 12 ∧ ¬ op = 13 ∧
        ¬ (21 ≤ op ∧ op ≤ 34) := by
      simp only [UInt32.le_iff_toNat_le, ← UInt32.toNat_inj] at h2 ⊢; simp at h2 ⊢; omega
    unfold parseFD
    refine Runs.ite_neg h3.1 (Runs.ite_neg h3.2.1 (Runs.ite_neg h3.2.2.1 (Runs.ite_neg h3.2.2.2.1
      (Runs.ite_neg h3.2.2.2.2 ?_))))
    rw [h1]; exact Runs.pure
  | _ => cases ho

local macro "rb1" t:term:max : tactic =>
  `(tactic| (unfold parseSimple; arm; exact Runs.bind_pure (Runs.mapErr $t)))
local macro "rb2" t:term:max u:term:max : tactic =>
  `(tactic| (unfold parseSimple; arm; exact Runs.bind (Runs.mapErr $t) (Runs.bind_pure (Runs.mapErr $u))))

theorem parseSimple_byte_runs {op : UInt8} {bs : Bytes} {i : Instr} (h : Leaf (.byte op) bs i) :
    Runs (R := R) (parseSimple op) bs i := by
  generalize ho : Opcode.byte op = o at h
  cases h with
  | plain =>
    obtain ⟨h1, h2, h3⟩ := plainByte_complete ho.symm
    simp only [specialBytes, List.mem_cons, List.not_mem_nil, or_false, not_or] at h2
    unfold parseSimple
    repeat refine Runs.ite_neg (by first | exact h3 | (simp only [h2, not_false_eq_true])) ?_
    rw [h1]; exact Runs.pure
  | mem h =>
    obtain ⟨h1, h2⟩ := mem_complete ho.symm
    have hne : ∀ c : UInt8, (c.toNat < 0x28 ∨ 0x3E < c.toNat) → op ≠ c := by
      rintro c hc rfl
      simp only [UInt8.le_iff_toNat_le] at h2
      simp at h2; omega
    unfold parseSimple
    repeat refine Runs.ite_neg (hne _ (by decide)) ?_
    refine Runs.ite_pos h2 ?_
    rw [h1]
    exact Runs.bind_pure (Runs.mapErr (Memarg.runs h))
  | @memLane op => cases op <;> cases ho
  | @lane op => cases op <;> cases ho
  | select => cases ho; exact Runs.pure
  | selectT h => cases ho; rb1 (list_runs (fun _ _ => ValType.runs) h)
  | throw h => cases ho; rb1 (TagIdx.runs h)
  | br h => cases ho; rb1 (LabelIdx.runs h)
  | brIf h => cases ho; rb1 (LabelIdx.runs h)
  | brTable h1 h2 => cases ho; rb2 (list_runs (fun _ _ => LabelIdx.runs) h1) (LabelIdx.runs h2)
  | call h => cases ho; rb1 (FuncIdx.runs h)
  | callIndirect h1 h2 => cases ho; rb2 (TypeIdx.runs h1) (TableIdx.runs h2)
  | returnCall h => cases ho; rb1 (FuncIdx.runs h)
  | returnCallIndirect h1 h2 => cases ho; rb2 (TypeIdx.runs h1) (TableIdx.runs h2)
  | callRef h => cases ho; rb1 (TypeIdx.runs h)
  | returnCallRef h => cases ho; rb1 (TypeIdx.runs h)
  | brOnNull h => cases ho; rb1 (LabelIdx.runs h)
  | brOnNonNull h => cases ho; rb1 (LabelIdx.runs h)
  | refNull h => cases ho; rb1 (HeapType.runs h)
  | refFunc h => cases ho; rb1 (FuncIdx.runs h)
  | localGet h => cases ho; rb1 (LocalIdx.runs h)
  | localSet h => cases ho; rb1 (LocalIdx.runs h)
  | localTee h => cases ho; rb1 (LocalIdx.runs h)
  | globalGet h => cases ho; rb1 (GlobalIdx.runs h)
  | globalSet h => cases ho; rb1 (GlobalIdx.runs h)
  | tableGet h => cases ho; rb1 (TableIdx.runs h)
  | tableSet h => cases ho; rb1 (TableIdx.runs h)
  | memorySize h => cases ho; rb1 (MemIdx.runs h)
  | memoryGrow h => cases ho; rb1 (MemIdx.runs h)
  | i32Const h => cases ho; rb1 (decodeI32_runs h)
  | i64Const h => cases ho; rb1 (decodeI64_runs h)
  | f32Const h => cases ho; rb1 (decodeF32_runs h)
  | f64Const h => cases ho; rb1 (decodeF64_runs h)
  | _ => cases ho

/-- The one-byte opcodes of leaf instructions are none of the bytes with another meaning. -/
theorem Leaf.byte_ne {op : UInt8} {bs : Bytes} {i : Instr} (h : Leaf (.byte op) bs i) :
    op ∉ [0x0B, 0x05, 0x02, 0x03, 0x04, 0x1F, 0xFB, 0xFC, (0xFD : UInt8)] := by
  generalize ho : Opcode.byte op = o at h
  cases h with
  | plain =>
    obtain ⟨h1, h2, h3⟩ := plainByte_complete ho.symm
    simp only [specialBytes, List.mem_cons, List.not_mem_nil, or_false, not_or] at h2 ⊢
    simp only [h2, not_false_eq_true, and_self]
  | mem h =>
    obtain ⟨h1, h2⟩ := mem_complete ho.symm
    have hne : ∀ c : UInt8, (c.toNat < 0x28 ∨ 0x3E < c.toNat) → op ≠ c := by
      rintro c hc rfl
      simp only [UInt8.le_iff_toNat_le] at h2
      simp at h2; omega
    simp only [List.mem_cons, List.not_mem_nil, or_false, not_or]
    refine ⟨?_, ?_, ?_, ?_, ?_, ?_, ?_, ?_, ?_⟩ <;> exact hne _ (by decide)
  | @memLane op => cases op <;> cases ho
  | @lane op => cases op <;> cases ho
  | _ => cases ho <;> decide

theorem LeafEnc.nonempty {i : Instr} : ¬ LeafEnc [] i := by
  rintro ⟨b, imms, o, h, ho, _⟩
  have := congrArg List.length h
  cases ho <;> simp at this

/-- the first byte of a leaf instruction -/
theorem LeafEnc.head {op : UInt8} {bs : Bytes} {i : Instr} (h : LeafEnc (op :: bs) i) :
    op ∉ [0x0B, 0x05, 0x02, 0x03, 0x04, (0x1F : UInt8)] := by
  obtain ⟨b, imms, o, h, ho, hl⟩ := h
  cases ho with
  | byte =>
    cases h
    have := Leaf.byte_ne hl
    simp only [List.mem_cons, List.not_mem_nil, or_false, not_or] at this ⊢
    simp only [this, not_false_eq_true, and_self]
  | fb => cases h; decide
  | fc => cases h; decide
  | fd => cases h; decide

theorem parseSimple_runs {op : UInt8} {bs : Bytes} {i : Instr} (h : LeafEnc (op :: bs) i) :
    Runs (R := R) (parseSimple op) bs i := by
  obtain ⟨b, imms, o, h, ho, hl⟩ := h
  cases ho with
  | byte => cases h; exact parseSimple_byte_runs hl
  | @fb b n hb =>
    cases h
    unfold parseSimple; arm
    obtain ⟨m, rfl⟩ : ∃ m : UInt32, n = m.toNat :=
      ⟨UInt32.ofNat n, by rw [UInt32.toNat_ofNat', Nat.mod_eq_of_lt (BU.lt hb)]⟩
    exact Runs.bind (Runs.mapErr (decodeU32_runs hb)) (parseFB_runs hl)
  | @fc b n hb =>
    cases h
    unfold parseSimple; arm
    obtain ⟨m, rfl⟩ : ∃ m : UInt32, n = m.toNat :=
      ⟨UInt32.ofNat n, by rw [UInt32.toNat_ofNat', Nat.mod_eq_of_lt (BU.lt hb)]⟩
    exact Runs.bind (Runs.mapErr (decodeU32_runs hb)) (parseFC_runs hl)
  | @fd b n hb =>
    cases h
    unfold parseSimple; arm
    obtain ⟨m, rfl⟩ : ∃ m : UInt32, n = m.toNat :=
      ⟨UInt32.ofNat n, by rw [UInt32.toNat_ofNat', Nat.mod_eq_of_lt (BU.lt hb)]⟩
    exact Runs.bind (Runs.mapErr (decodeU32_runs hb)) (parseFD_runs hl)

end Wadec
