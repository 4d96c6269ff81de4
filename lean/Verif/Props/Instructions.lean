import Verif.Props.Types
import Verif.Proof.ContextEnds
import Verif.Proof.Unambig

/-! C15, C16, C42: instructions and expressions. -/

namespace Wadec

open LawfulRead Spec

section
variable {R : Type} [LawfulRead R]

/-- C15: `decode_expr` decodes exactly the grammar of expressions.  (Its second result, used for
the data count check, says whether some instruction of the expression, nested or not, has a data
index.) -/
theorem c15_expr : Decodes (decodeExpr : Dec R _ _)
    (fun bs v => BExpr bs v.1 ∧ (v.2 = true ↔ ∃ i ∈ v.1, UsesData i)) := by
  refine Decodes.of (expr_sound.mono ?_) ?_
  · rintro bs v ⟨h1, h2⟩
    exact ⟨h1, by rw [h2]; exact anyContainsDataIdx_iff _⟩
  · rintro bs v ⟨h1, h2⟩
    refine expr_runs ⟨h1, ?_⟩
    rw [Bool.eq_iff_iff, h2]
    exact (anyContainsDataIdx_iff _).symm

/-- C15: a byte that starts no instruction is rejected wherever an instruction is expected, and the
error names it. -/
theorem c15_unassigned_byte {r : R} {c : Ctx} {pre rest : Bytes} {b : UInt8}
    (hw : Within .expr c pre) (hb : UnassignedByte b) (ha : avail r = pre ++ b :: rest) :
    ∃ r', decodeExpr r = (.err (.ParseInstruction (.InvalidOpcode b)), r') :=
  expr_fails_of_parse hw (parse_byte_fails hb) r rest (by rw [ha]; simp)

/-- C15: the same for the number after the prefix byte 0xFB. -/
theorem c15_unassigned_fb {r : R} {c : Ctx} {pre bs rest : Bytes} {n : UInt32}
    (hw : Within .expr c pre) (hb : BU32 bs n) (hu : Unassigned (.fb n.toNat))
    (ha : avail r = pre ++ (0xFB :: bs ++ rest)) :
    ∃ r', decodeExpr r = (.err (.ParseInstruction (.InvalidMarkerByteAfterFB n)), r') :=
  expr_fails_of_parse hw (parse_fb_fails hb hu) r rest (by rw [ha]; simp)

/-- C15: the same for the number after the prefix byte 0xFC. -/
theorem c15_unassigned_fc {r : R} {c : Ctx} {pre bs rest : Bytes} {n : UInt32}
    (hw : Within .expr c pre) (hb : BU32 bs n) (hu : Unassigned (.fc n.toNat))
    (ha : avail r = pre ++ (0xFC :: bs ++ rest)) :
    ∃ r', decodeExpr r = (.err (.ParseInstruction (.InvalidMarkerByteAfterFC n)), r') :=
  expr_fails_of_parse hw (parse_fc_fails hb hu) r rest (by rw [ha]; simp)

/-- C15: the same for the number after the prefix byte 0xFD. -/
theorem c15_unassigned_fd {r : R} {c : Ctx} {pre bs rest : Bytes} {n : UInt32}
    (hw : Within .expr c pre) (hb : BU32 bs n) (hu : Unassigned (.fd n.toNat))
    (ha : avail r = pre ++ (0xFD :: bs ++ rest)) :
    ∃ r', decodeExpr r = (.err (.ParseInstruction (.Vector (.InvalidOpcode n))), r') :=
  expr_fails_of_parse hw (parse_fd_fails hb hu) r rest (by rw [ha]; simp)

/-- C16: `else` where the innermost open construct is a block, a loop, a try_table or an else
branch is an error. -/
theorem c16_misplaced_else {r : R} {c : Ctx} {pre rest : Bytes} (hw : Within .expr c pre)
    (hc : c ≠ .then) (he : c ≠ .expr) (ha : avail r = pre ++ 0x05 :: rest) :
    ∃ r', decodeExpr r = (.err (.ParseInstruction (.Control .UnexpectedElse)), r') := by
  have hlen := congrArg List.length ha
  have hle := avail_le r
  simp only [List.length_append, List.length_cons] at hlen
  refine exprLoop_within_fails (tail := [0x05]) hw he ?_ (Read.weight r + 1) (Read.weight r + 1) []
    false (by omega) (by omega) r rest (by rw [ha]; simp)
  intro n m acc hn hm
  match n, hn, m, hm with
  | n + 1, _, m + 1, _ =>
    refine Fails.bind2 (b2 := []) (parse_else n) ?_
    exact Fails.ite_neg (by simpa using hc) Fails.err

/-- C16: so is `else` outside all constructs. -/
theorem c16_toplevel_else {r : R} {pre rest : Bytes} {is : List Instr} (hi : BInstrs pre is)
    (ha : avail r = pre ++ 0x05 :: rest) :
    ∃ r', decodeExpr r = (.err .UnexpectedElse, r') := by
  have hlen := congrArg List.length ha
  have hle := avail_le r
  simp only [List.length_append, List.length_cons] at hlen
  refine exprLoop_fails (tail := [0x05]) (parse_runs _) ?_ is pre (Read.weight r + 1) []
    false hi (by omega) (by omega) r rest (by rw [ha]; simp)
  intro m acc d hm
  match m, hm with
  | m + 1, _ => exact Fails.bind2 (b2 := []) (Runs.mapErr (parse_else _)) Fails.err

/-- C16: an expression that has not got an `end` for each open construct and one for itself is not
accepted: the next opcode is missing. -/
theorem c16_missing_end {r : R} {c : Ctx} {pre : Bytes} (hw : Within .expr c pre)
    (ha : avail r = pre) :
    ∃ r', decodeExpr r = (.err (.ParseInstruction (.ReadOpcode (fin r).toErr)), r') :=
  expr_ends_of_parse (tail := []) hw parse_ends r (by simpa using ha)

/-- C42. -/
theorem c42_memarg : Decodes (Memarg.decode : Dec R _ _) BMemarg :=
  Decodes.of Memarg.sound fun _ _ => Memarg.runs

/-- C42: flags from 2^7 on are rejected with their value. -/
theorem c42_flags {r : R} {bs rest : Bytes} {n : UInt32} (h : BU32 bs n) (hn : 2 ^ 7 ≤ n.toNat)
    (ha : avail r = bs ++ rest) :
    ∃ r', Memarg.decode r = (.err (.InvalidFlagsBit n), r') := by
  refine Fails.bind2 (b2 := []) (Runs.mapErr (decodeU32_runs h)) ?_ r rest (by simpa using ha)
  refine Fails.ite_neg ?_ (Fails.ite_neg ?_ Fails.err)
  · intro h
    have : n.toNat < 64 := UInt32.lt_iff_toNat_lt.1 h
    omega
  · intro h
    have : n.toNat < 128 := UInt32.lt_iff_toNat_lt.1 h
    omega

/-- C42: the components of an accepted memory argument, in terms of its flags. -/
theorem c42_components {r r' : R} {m : Memarg} (h : Memarg.decode r = (.ok m, r')) :
    ∃ (flags : UInt32) (b i o : Bytes), BU32 b flags ∧ avail r = b ++ (i ++ (o ++ avail r')) ∧ flags.toNat < 2 ^ 7 ∧
      m.align.toNat = flags.toNat % 2 ^ 6 ∧ (flags.toNat < 2 ^ 6 → i = [] ∧ m.mem_idx.val = 0) ∧
      (2 ^ 6 ≤ flags.toNat → BU32 i m.mem_idx.val) ∧ BU64 o m.offset := by
  obtain ⟨bs, hb, ha, _⟩ := (c42_memarg (R := R)).1 r m r' h
  cases hb with
  | @mem0 b1 b2 n o h1 h2 h3 =>
    exact ⟨n, b1, [], b2, h1, by rw [ha]; simp, by omega, by simp only; omega, fun _ => ⟨rfl, rfl⟩, by omega, h3⟩
  | @memx b1 b2 b3 n a x o h1 h2 h3 h4 h5 h6 =>
    exact ⟨n, b1, b2, b3, h1, by rw [ha]; simp, by omega, by simp only; omega, by omega, fun _ => h5, h6⟩

end

/-! ### Instances -/

/-- `0x41 0x05` is `i32.const 5` -/
theorem i32Const5 : BInstr [0x41, 0x05] (.I32Const 5) :=
  .leaf (b := [0x41]) .byte (.i32Const (v := 5) ((c07_i32 5 _).2 ⟨1, by decide⟩))

/-- C15: `if (nop) (else (block (data.drop 3)))` is an expression that uses a data index. -/
example : BExpr [0x04, 0x40, 0x01, 0x05, 0x02, 0x40, 0xFC, 0x09, 0x03, 0x0B, 0x0B, 0x0B]
    [.If .Empty [.plain .Nop] (some [.Block .Empty [.DataDrop ⟨3⟩]])] := by
  have nop : BInstr [0x01] (.plain .Nop) := .leaf (b := [0x01]) .byte (.plain (op := .Nop))
  have dd : BInstr [0xFC, 0x09, 0x03] (.DataDrop ⟨3⟩) :=
    .leaf (b := [0xFC, 0x09]) (.fc ((c07_u32 9 _).2 ⟨1, by decide⟩))
      (.dataDrop ((c07_u32 3 _).2 ⟨1, by decide⟩))
  exact .mk (bs := [0x04, 0x40, 0x01, 0x05, 0x02, 0x40, 0xFC, 0x09, 0x03, 0x0B, 0x0B])
    (.cons (bs := []) (.ifElse (b1 := [0x40]) (b2 := [0x01]) .empty (.cons (bs := []) nop .nil)
      (.cons (bs := []) (.block (b1 := [0x40]) .empty (.cons (bs := []) dd .nil)) .nil)) .nil)
example : ∃ i ∈ [Instr.If .Empty [.plain .Nop] (some [.Block .Empty [.DataDrop ⟨3⟩]])],
    UsesData i :=
  ⟨_, List.mem_singleton.2 rfl, .ifElse (List.mem_singleton.2 rfl)
    (.block (List.mem_singleton.2 rfl) .dataDrop)⟩

/-- the opcode byte of a leaf instruction -/
theorem Leaf.byte_cases {b : UInt8} {imms : Bytes} {i : Instr} (h : Leaf (.byte b) imms i) :
    plainByteTable.lookup b ≠ none ∨ memTable.lookup b ≠ none ∨
      b ∈ [0x08, 0x0C, 0x0D, 0x0E, 0x10, 0x11, 0x12, 0x13, 0x14, 0x15, 0xD5, 0xD6, 0xD0, 0xD2, 0x1B,
        0x1C, 0x20, 0x21, 0x22, 0x23, 0x24, 0x25, 0x26, 0x3F, 0x40, 0x41, 0x42, 0x43, 0x44] := by
  generalize ho : Opcode.byte b = o at h
  cases h with
  | plain => rw [(plainByte_complete ho.symm).1]; exact .inl (by simp)
  | mem h => rw [(mem_complete ho.symm).1]; exact .inr (.inl (by simp))
  | @memLane op => cases op <;> cases ho
  | @lane op => cases op <;> cases ho
  | _ => cases ho <;> exact .inr (.inr (by decide))

/-- The bytes that the specification assigns to nothing. -/
def unassignedBytes : List UInt8 :=
  [0x06, 0x07, 0x09, 0x16, 0x17, 0x18, 0x19, 0x1D, 0x1E, 0x27,
   0xC5, 0xC6, 0xC7, 0xC8, 0xC9, 0xCA, 0xCB, 0xCC, 0xCD, 0xCE, 0xCF,
   0xD7, 0xD8, 0xD9, 0xDA, 0xDB, 0xDC, 0xDD, 0xDE, 0xDF, 0xE0, 0xE1, 0xE2, 0xE3, 0xE4, 0xE5, 0xE6,
   0xE7, 0xE8, 0xE9, 0xEA, 0xEB, 0xEC, 0xED, 0xEE, 0xEF, 0xF0, 0xF1, 0xF2, 0xF3, 0xF4, 0xF5, 0xF6,
   0xF7, 0xF8, 0xF9, 0xFA, 0xFE, 0xFF]

set_option maxRecDepth 100000 in
theorem unassigned_aux : ∀ b : UInt8, b ∈ unassignedBytes →
    plainByteTable.lookup b = none ∧ memTable.lookup b = none ∧
      b ∉ [0x08, 0x0C, 0x0D, 0x0E, 0x10, 0x11, 0x12, 0x13, 0x14, 0x15, 0xD5, 0xD6, 0xD0, 0xD2, 0x1B,
        0x1C, 0x20, 0x21, 0x22, 0x23, 0x24, 0x25, 0x26, 0x3F, 0x40, 0x41, 0x42, 0x43, 0x44,
        0x02, 0x03, 0x04, 0x1F, 0xFB, 0xFC, 0xFD, 0x0B, 0x05] := by
  apply forall_u8; decide

/-- C15: the bytes of `unassignedBytes` meet the hypothesis of `c15_unassigned_byte`. -/
theorem unassignedByte_of_mem {b : UInt8} (h : b ∈ unassignedBytes) : UnassignedByte b := by
  obtain ⟨h1, h2, h3⟩ := unassigned_aux b h
  simp only [List.mem_cons, List.not_mem_nil, or_false, not_or] at h3
  refine ⟨by simp only [h3, ne_eq, not_false_eq_true], by simp only [h3, ne_eq, not_false_eq_true], ?_⟩
  rintro ⟨bs, i, hi⟩
  generalize hx : b :: bs = x at hi
  cases hi with
  | @leaf b' imms op _ ho hl =>
    cases ho with
    | byte =>
      cases hx
      rcases Leaf.byte_cases hl with h | h | h
      · exact h h1
      · exact h h2
      · simp only [List.mem_cons, List.not_mem_nil, or_false] at h
        simp only [h3, or_self] at h
    | fb => cases hx; simp at h3
    | fc => cases hx; simp at h3
    | fd => cases hx; simp at h3
  | _ => cases hx; simp at h3

set_option maxRecDepth 4000 in
theorem plain_fd_bound {p : PlainOp} {n : Nat} (h : opcodeOfPlainOp p = .fd n) :
    n < 276 ∧ n ≠ 154 := by
  cases p <;> cases h <;> decide
theorem plain_fb_bound {p : PlainOp} {n : Nat} (h : opcodeOfPlainOp p = .fb n) : n < 31 := by
  cases p <;> cases h <;> decide
theorem plain_fc_bound {p : PlainOp} {n : Nat} (h : opcodeOfPlainOp p = .fc n) : n < 18 := by
  cases p <;> cases h <;> decide

/-- C15: the numbers from 31 on are unassigned after 0xFB -/
theorem unassigned_fb {n : Nat} (hn : 31 ≤ n) : Unassigned (.fb n) := by
  rintro ⟨imms, i, h⟩
  generalize ho : Opcode.fb n = o at h
  cases h with
  | plain => have := plain_fb_bound ho.symm; omega
  | @mem op => cases op <;> cases ho
  | @memLane op => cases op <;> cases ho
  | @lane op => cases op <;> cases ho
  | _ => cases ho <;> omega

/-- C15: the numbers from 18 on are unassigned after 0xFC -/
theorem unassigned_fc {n : Nat} (hn : 18 ≤ n) : Unassigned (.fc n) := by
  rintro ⟨imms, i, h⟩
  generalize ho : Opcode.fc n = o at h
  cases h with
  | plain => have := plain_fc_bound ho.symm; omega
  | @mem op => cases op <;> cases ho
  | @memLane op => cases op <;> cases ho
  | @lane op => cases op <;> cases ho
  | _ => cases ho <;> omega

/-- C15: the numbers from 276 on, and 154, are unassigned after 0xFD -/
theorem unassigned_fd {n : Nat} (hn : 276 ≤ n ∨ n = 154) : Unassigned (.fd n) := by
  rintro ⟨imms, i, h⟩
  generalize ho : Opcode.fd n = o at h
  cases h with
  | plain => have := plain_fd_bound ho.symm; omega
  | @mem op => cases op <;> cases ho <;> omega
  | @memLane op => cases op <;> cases ho <;> omega
  | @lane op => cases op <;> cases ho <;> omega
  | _ => cases ho <;> omega

/-- The numbers below 276 that the specification leaves free after the prefix byte 0xFD -/
def freeFD : List Nat :=
  [154, 162, 165, 166, 175, 176, 178, 179, 180, 187, 194, 197, 198, 207, 208, 210, 211, 212, 226, 238]

set_option maxRecDepth 4000 in
theorem plain_fd_free {p : PlainOp} {n : Nat} (h : opcodeOfPlainOp p = .fd n) : n ∉ freeFD := by
  cases p <;> cases h <;> decide

theorem unassigned_fd_free {n : Nat} (hn : n ∈ freeFD) : Unassigned (.fd n) := by
  rintro ⟨imms, i, h⟩
  generalize ho : Opcode.fd n = o at h
  cases h with
  | plain => exact plain_fd_free ho.symm hn
  | @mem op => cases op <;> cases ho <;> revert hn <;> decide
  | @memLane op => cases op <;> cases ho <;> revert hn <;> decide
  | @lane op => cases op <;> cases ho <;> revert hn <;> decide
  | _ => cases ho <;> revert hn <;> decide

/-- The error names an unassigned opcode -/
def namesFree : Res ParseExpressionError (Expr × Bool) → Bool
  | .err (.ParseInstruction (.InvalidOpcode _)) => true
  | .err (.ParseInstruction (.InvalidMarkerByteAfterFB _)) => true
  | .err (.ParseInstruction (.InvalidMarkerByteAfterFC _)) => true
  | .err (.ParseInstruction (.Vector (.InvalidOpcode _))) => true
  | _ => false

theorem tried_byte : ∀ b : UInt8, b ∉ unassignedBytes → b ≠ 0x0B → b ≠ 0x05 →
    namesFree (decodeExpr (Src.ofBytes [b])).1 = false := by
  apply forall_u8; decide +kernel

theorem tried_fb : ∀ n, n < 31 → namesFree (decodeExpr (Src.ofBytes (0xFB :: uEnc 5 n))).1 = false := by decide +kernel
theorem tried_fc : ∀ n, n < 18 → namesFree (decodeExpr (Src.ofBytes (0xFC :: uEnc 5 n))).1 = false := by decide +kernel
theorem tried_fd : ∀ n, n < 276 → n ∉ freeFD → namesFree (decodeExpr (Src.ofBytes (0xFD :: uEnc 5 n))).1 = false := by decide +kernel

/-- C15: these are all the unassigned opcodes: the bytes of `unassignedBytes`; after 0xFB the numbers from 31 on, after 0xFC those from
18 on, and after 0xFD those from 276 on and the twenty of `freeFD`. -/
theorem c15_unassigned_all :
    (∀ b, UnassignedByte b ↔ b ∈ unassignedBytes) ∧ (∀ n < 2 ^ 32, Unassigned (.fb n) ↔ 31 ≤ n) ∧
    (∀ n < 2 ^ 32, Unassigned (.fc n) ↔ 18 ≤ n) ∧ ∀ n < 2 ^ 32, Unassigned (.fd n) ↔ 276 ≤ n ∨ n ∈ freeFD := by
  have enc : ∀ n, n < 2 ^ 32 → BU32 (uEnc 5 n) (UInt32.ofNat n) ∧ (UInt32.ofNat n).toNat = n := by
    intro n hn
    have h : (UInt32.ofNat n).toNat = n := by rw [UInt32.toNat_ofNat']; exact Nat.mod_eq_of_lt hn
    exact ⟨(c07_u32 _ _).2 ⟨5, by omega, by omega, by rw [h]; omega, by rw [h]⟩, h⟩
  refine ⟨fun b => ⟨fun h => ?_, unassignedByte_of_mem⟩, fun n hn => ⟨fun h => ?_, unassigned_fb⟩,
    fun n hn => ⟨fun h => ?_, unassigned_fc⟩, fun n hn => ⟨fun h => ?_, fun h => ?_⟩⟩
  · refine Classical.byContradiction fun hm => ?_
    obtain ⟨r', e⟩ := c15_unassigned_byte (r := Src.ofBytes [b]) (rest := []) (.here .nil) h (avail_ofBytes _)
    have := tried_byte b hm h.1 h.2.1
    rw [e] at this
    cases this
  · refine Nat.le_of_not_lt fun hm => ?_
    obtain ⟨h1, h2⟩ := enc n hn
    obtain ⟨r', e⟩ := c15_unassigned_fb (r := Src.ofBytes (0xFB :: uEnc 5 n)) (rest := []) (.here .nil) h1 (by rw [h2]; exact h)
      (by rw [avail_ofBytes, List.append_nil]; rfl)
    have := tried_fb n hm
    rw [e] at this
    cases this
  · refine Nat.le_of_not_lt fun hm => ?_
    obtain ⟨h1, h2⟩ := enc n hn
    obtain ⟨r', e⟩ := c15_unassigned_fc (r := Src.ofBytes (0xFC :: uEnc 5 n)) (rest := []) (.here .nil) h1 (by rw [h2]; exact h)
      (by rw [avail_ofBytes, List.append_nil]; rfl)
    have := tried_fc n hm
    rw [e] at this
    cases this
  · refine Classical.byContradiction fun hm => ?_
    obtain ⟨h1, h2⟩ := enc n hn
    obtain ⟨r', e⟩ := c15_unassigned_fd (r := Src.ofBytes (0xFD :: uEnc 5 n)) (rest := []) (.here .nil) h1 (by rw [h2]; exact h)
      (by rw [avail_ofBytes, List.append_nil]; rfl)
    have := tried_fd n (by omega) (fun h => hm (.inr h))
    rw [e] at this
    cases this
  · rcases h with h | h
    · exact unassigned_fd (.inl h)
    · exact unassigned_fd_free h

/-- C15/C16: a position two constructs deep: inside the else branch of an if in a loop, after
`i32.const 5`. -/
theorem deepPosition : Within .expr .else [0x41, 0x05, 0x03, 0x40, 0x04, 0x40, 0x05, 0x41, 0x05] :=
  .enter (pre := [0x41, 0x05]) (o := [0x03, 0x40]) (bs := [0x04, 0x40, 0x05, 0x41, 0x05])
    (.cons (bs := []) i32Const5 .nil) (.loop .empty)
    (.enter (pre := []) (o := [0x04, 0x40, 0x05]) (bs := [0x41, 0x05]) .nil
      (.else (b := [0x40]) (b2 := []) .empty .nil) (.here (.cons (bs := []) i32Const5 .nil)))

example : (decodeExpr (Src.ofBytes
    [0x41, 0x05, 0x03, 0x40, 0x04, 0x40, 0x05, 0x41, 0x05, 0x05, 0x0B, 0x0B, 0x0B])).1 =
    .err (.ParseInstruction (.Control .UnexpectedElse)) := by
  obtain ⟨r', h⟩ := c16_misplaced_else (r := Src.ofBytes _) (rest := [0x0B, 0x0B, 0x0B])
    deepPosition (by decide) (by decide) (avail_ofBytes _)
  exact congrArg Prod.fst h

example : (decodeExpr (Src.ofBytes
    [0x41, 0x05, 0x03, 0x40, 0x04, 0x40, 0x05, 0x41, 0x05, 0x27, 0x0B])).1 =
    .err (.ParseInstruction (.InvalidOpcode 0x27)) := by
  obtain ⟨r', h⟩ := c15_unassigned_byte (r := Src.ofBytes _) (rest := [0x0B]) deepPosition
    (unassignedByte_of_mem (b := 0x27) (by decide)) (avail_ofBytes _)
  exact congrArg Prod.fst h

/-- C42: bit 6 set, so an explicit memory index -/
example : BMemarg [0x43, 0x02, 0x80, 0x01] ⟨⟨2⟩, 3, 128⟩ :=
  .memx (b1 := [0x43]) (b2 := [0x02]) (b3 := [0x80, 0x01]) (n := 67)
    ((c07_u32 67 _).2 ⟨1, by decide⟩) (by decide) (by decide) (by decide)
    ((c07_u32 2 _).2 ⟨1, by decide⟩) ((c07_u64 128 _).2 ⟨2, by decide⟩)

end Wadec
