import Verif.Proof.Block

/-! The opcode tables of the decoder against those of the specification. -/

namespace Wadec

open LawfulRead Spec

variable {R S : Type} [LawfulRead R] [LawfulRead S] {L : Nat}

/-! ### Opcode tables against the specification -/

theorem lookup_mem {α β : Type} [BEq α] [LawfulBEq α] {l : List (α × β)} {a : α} {b : β}
    (h : l.lookup a = some b) : (a, b) ∈ l := by
  induction l with
  | nil => simp at h
  | cons x l ih =>
    obtain ⟨c, d⟩ := x
    rw [List.lookup_cons] at h
    by_cases hc : a == c
    · simp only [hc] at h
      cases h
      simp [eq_of_beq hc]
    · simp only [hc] at h
      exact List.mem_cons_of_mem _ (ih h)

set_option maxRecDepth 4000 in
theorem plainByte_ok : ∀ x ∈ plainByteTable, opcodeOfPlainOp x.2 = .byte x.1 := by decide
theorem plainFB_ok : ∀ x ∈ plainFBTable, opcodeOfPlainOp x.2 = .fb x.1.toNat := by decide
theorem plainFC_ok : ∀ x ∈ plainFCTable, opcodeOfPlainOp x.2 = .fc x.1.toNat := by decide
set_option maxRecDepth 8000 in
theorem plainFD_ok : ∀ x ∈ plainFDTable, opcodeOfPlainOp x.2 = .fd x.1.toNat := by decide
theorem mem_ok : ∀ x ∈ memTable, opcodeOfMemOp x.2 = .byte x.1 := by decide
theorem memFD_ok : ∀ x ∈ memFDTable, opcodeOfMemOp x.2 = .fd x.1.toNat := by decide
theorem memLaneFD_ok : ∀ x ∈ memLaneFDTable, opcodeOfMemLaneOp x.2 = .fd x.1.toNat := by decide
theorem laneFD_ok : ∀ x ∈ laneFDTable, opcodeOfLaneOp x.2 = .fd x.1.toNat := by decide


/-- The opcode bytes with an arm of their own in `parse`. -/
def specialBytes : List UInt8 :=
  [0x0B, 0x05, 0x02, 0x03, 0x04, 0x1F, 0x1B, 0x1C, 0x08, 0x0C, 0x0D, 0x0E, 0x10, 0x11, 0x12, 0x13,
   0x14, 0x15, 0xD5, 0xD6, 0xD0, 0xD2, 0xFB, 0x20, 0x21, 0x22, 0x23, 0x24, 0x25, 0x26, 0x3F, 0x40,
   0x41, 0x42, 0x43, 0x44, 0xFC, 0xFD]

set_option maxRecDepth 8000 in
theorem plainByte_complete {p : PlainOp} {b : UInt8} (h : opcodeOfPlainOp p = .byte b) :
    plainByteTable.lookup b = some p ∧ b ∉ specialBytes ∧ ¬ (0x28 ≤ b ∧ b ≤ 0x3E) := by
  cases p <;> cases h <;> exact ⟨rfl, by decide, by decide⟩

theorem plainFB_complete {p : PlainOp} {n : UInt32} (h : opcodeOfPlainOp p = .fb n.toNat) :
    plainFBTable.lookup n = some p ∧ (n = 15 ∨ n = 26 ∨ n = 27 ∨ n = 28 ∨ n = 29 ∨ n = 30) := by
  have key : ∀ k, opcodeOfPlainOp p = .fb k → k < 2 ^ 32 ∧
      plainFBTable.lookup (UInt32.ofNat k) = some p ∧
      (k = 15 ∨ k = 26 ∨ k = 27 ∨ k = 28 ∨ k = 29 ∨ k = 30) := by
    intro k h
    cases p <;> cases h <;> exact ⟨by decide, rfl, by decide⟩
  obtain ⟨_, h1, h2⟩ := key _ h
  rw [UInt32.ofNat_toNat] at h1
  refine ⟨h1, ?_⟩
  simpa [← UInt32.toNat_inj] using h2

theorem plainFC_complete {p : PlainOp} {n : UInt32} (h : opcodeOfPlainOp p = .fc n.toNat) :
    plainFCTable.lookup n = some p ∧ n ≤ 7 := by
  have key : ∀ k, opcodeOfPlainOp p = .fc k → 
      plainFCTable.lookup (UInt32.ofNat k) = some p ∧ k ≤ 7 := by
    intro k h
    cases p <;> cases h <;> exact ⟨rfl, by decide⟩
  obtain ⟨h1, h2⟩ := key _ h
  rw [UInt32.ofNat_toNat] at h1
  exact ⟨h1, by rw [UInt32.le_iff_toNat_le]; exact h2⟩

set_option maxRecDepth 8000 in
theorem plainFD_complete {p : PlainOp} {n : UInt32} (h : opcodeOfPlainOp p = .fd n.toNat) :
    plainFDTable.lookup n = some p ∧
      ((14 ≤ n ∧ n ≤ 20) ∨ (35 ≤ n ∧ n ≤ 83) ∨ 94 ≤ n) := by
  have key : ∀ k, opcodeOfPlainOp p = .fd k → 
      plainFDTable.lookup (UInt32.ofNat k) = some p ∧
      ((14 ≤ k ∧ k ≤ 20) ∨ (35 ≤ k ∧ k ≤ 83) ∨ 94 ≤ k) := by
    intro k h
    cases p <;> cases h <;> exact ⟨rfl, by decide⟩
  obtain ⟨h1, h2⟩ := key _ h
  rw [UInt32.ofNat_toNat] at h1
  exact ⟨h1, by simp only [UInt32.le_iff_toNat_le]; exact h2⟩

theorem mem_complete {p : MemOp} {b : UInt8} (h : opcodeOfMemOp p = .byte b) :
    memTable.lookup b = some p ∧ 0x28 ≤ b ∧ b ≤ 0x3E := by
  cases p <;> cases h <;> exact ⟨rfl, by decide⟩

theorem memFD_complete {p : MemOp} {n : UInt32} (h : opcodeOfMemOp p = .fd n.toNat) :
    memFDTable.lookup n = some p ∧ (n ≤ 11 ∨ n = 92 ∨ n = 93) := by
  have key : ∀ k, opcodeOfMemOp p = .fd k → 
      memFDTable.lookup (UInt32.ofNat k) = some p ∧ (k ≤ 11 ∨ k = 92 ∨ k = 93) := by
    intro k h
    cases p <;> cases h <;> exact ⟨rfl, by decide⟩
  obtain ⟨h1, h2⟩ := key _ h
  rw [UInt32.ofNat_toNat] at h1
  exact ⟨h1, by simp only [UInt32.le_iff_toNat_le, ← UInt32.toNat_inj]; exact h2⟩

theorem memLaneFD_complete {p : MemLaneOp} {n : UInt32} (h : opcodeOfMemLaneOp p = .fd n.toNat) :
    memLaneFDTable.lookup n = some p ∧ (84 ≤ n ∧ n ≤ 91) := by
  have key : ∀ k, opcodeOfMemLaneOp p = .fd k → 
      memLaneFDTable.lookup (UInt32.ofNat k) = some p ∧ (84 ≤ k ∧ k ≤ 91) := by
    intro k h
    cases p <;> cases h <;> exact ⟨rfl, by decide⟩
  obtain ⟨h1, h2⟩ := key _ h
  rw [UInt32.ofNat_toNat] at h1
  exact ⟨h1, by simp only [UInt32.le_iff_toNat_le]; exact h2⟩

theorem laneFD_complete {p : LaneOp} {n : UInt32} (h : opcodeOfLaneOp p = .fd n.toNat) :
    laneFDTable.lookup n = some p ∧ (21 ≤ n ∧ n ≤ 34) := by
  have key : ∀ k, opcodeOfLaneOp p = .fd k → 
      laneFDTable.lookup (UInt32.ofNat k) = some p ∧ (21 ≤ k ∧ k ≤ 34) := by
    intro k h
    cases p <;> cases h <;> exact ⟨rfl, by decide⟩
  obtain ⟨h1, h2⟩ := key _ h
  rw [UInt32.ofNat_toNat] at h1
  exact ⟨h1, by simp only [UInt32.le_iff_toNat_le]; exact h2⟩

theorem u32_eq {n : UInt32} {k : Nat} (hk : k < 4294967296) (h : n.toNat = k) : n = UInt32.ofNat k := by
  rw [← h, UInt32.ofNat_toNat]

theorem memFD_total {n : UInt32} (h : n ≤ 11 ∨ n = 92 ∨ n = 93) : memFDTable.lookup n ≠ none := by
  simp only [UInt32.le_iff_toNat_le, ← UInt32.toNat_inj] at h
  have : n.toNat ≤ 11 ∨ n.toNat = 92 ∨ n.toNat = 93 := h
  have h : n.toNat = 0 ∨ n.toNat = 1 ∨ n.toNat = 2 ∨ n.toNat = 3 ∨ n.toNat = 4 ∨ n.toNat = 5 ∨
    n.toNat = 6 ∨ n.toNat = 7 ∨ n.toNat = 8 ∨ n.toNat = 9 ∨ n.toNat = 10 ∨ n.toNat = 11 ∨
    n.toNat = 92 ∨ n.toNat = 93 := by omega
  rcases h with h | h | h | h | h | h | h | h | h | h | h | h | h | h <;>
    (rw [u32_eq (by decide) h]; decide)

theorem memLaneFD_total {n : UInt32} (h : 84 ≤ n ∧ n ≤ 91) : memLaneFDTable.lookup n ≠ none := by
  simp only [UInt32.le_iff_toNat_le] at h
  have : 84 ≤ n.toNat ∧ n.toNat ≤ 91 := h
  have h : n.toNat = 84 ∨ n.toNat = 85 ∨ n.toNat = 86 ∨ n.toNat = 87 ∨ n.toNat = 88 ∨
    n.toNat = 89 ∨ n.toNat = 90 ∨ n.toNat = 91 := by omega
  rcases h with h | h | h | h | h | h | h | h <;> (rw [u32_eq (by decide) h]; decide)

theorem laneFD_total {n : UInt32} (h : 21 ≤ n ∧ n ≤ 34) : laneFDTable.lookup n ≠ none := by
  simp only [UInt32.le_iff_toNat_le] at h
  have : 21 ≤ n.toNat ∧ n.toNat ≤ 34 := h
  have h : n.toNat = 21 ∨ n.toNat = 22 ∨ n.toNat = 23 ∨ n.toNat = 24 ∨ n.toNat = 25 ∨
    n.toNat = 26 ∨ n.toNat = 27 ∨ n.toNat = 28 ∨ n.toNat = 29 ∨ n.toNat = 30 ∨ n.toNat = 31 ∨
    n.toNat = 32 ∨ n.toNat = 33 ∨ n.toNat = 34 := by omega
  rcases h with h | h | h | h | h | h | h | h | h | h | h | h | h | h <;>
    (rw [u32_eq (by decide) h]; decide)

set_option maxRecDepth 100000 in
theorem mem_total {b : UInt8} : 0x28 ≤ b ∧ b ≤ 0x3E → memTable.lookup b ≠ none := by
  revert b; apply forall_u8; decide

/-! ### Immediates of several instructions -/

theorem vecBytes_sound : Sound (R := R) vecBytes (fun bs v => bs = v.val) := by
  refine Sound.bind (Sound.mapErr Sound.readExact) ?_
  rintro buf b ⟨rfl, hl⟩
  rw [dif_pos hl]
  exact Sound.pure (by simp)

theorem vecBytes_runs {v : Bytes16} : Runs (R := R) vecBytes v.val v := by
  rw [← List.append_nil v.val]
  refine Runs.bind (Runs.mapErr (Runs.readExact v.2)) ?_
  rw [dif_pos v.2]
  exact Runs.pure

theorem vecBytes_g : G 16 L (vecBytes : Dec R _ _) (vecBytes : Dec S _ _) := by
  refine G.bindP (j := 0) (Sound.post (Sound.mapErr Sound.readExact)) (gmap G.readExact)
    (fun _ x hx => ?_) (by omega)
  obtain ⟨_, _, hx⟩ := hx
  rw [dif_pos hx, dif_pos hx]
  exact G.pure

end Wadec
