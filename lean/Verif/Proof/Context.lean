import Verif.Spec.Context
import Verif.Proof.Instr
import Verif.Proof.LebErr

/-! Failures inside nested constructs. -/

namespace Wadec

open LawfulRead Spec

variable {R : Type} [LawfulRead R]

theorem parseSeq_fails {p : Dec R ParseError ParseResult} {N : Nat} {ae : Bool} {tail : Bytes}
    {e : ParseError} (hp : ∀ bs i, BInstr bs i → bs.length ≤ N → Runs p bs (.Instruction i))
    (ht : ∀ m acc, 0 < m → Fails (parseSeq p m ae acc) tail e) :
    ∀ (is : List Instr) (bs : Bytes) (m : Nat) (acc : List Instr), BInstrs bs is → bs.length ≤ N →
      bs.length < m → Fails (parseSeq p m ae acc) (bs ++ tail) e := by
  intro is
  induction is with
  | nil =>
    intro bs m acc h hN hm
    cases h
    exact ht m acc (by simpa using hm)
  | cons i is ih =>
    intro bs m acc h hN hm
    cases h with
    | @cons b bs _ _ h1 h2 =>
      have := BInstr.length_pos h1
      simp only [List.length_append] at hN hm
      match m, hm with
      | m + 1, hm =>
        rw [List.append_assoc]
        exact Fails.bind2 (hp _ _ h1 (by omega)) (ih bs m (acc ++ [i]) h2 (by omega) (by omega))

theorem exprLoop_fails {p : Dec R ParseError ParseResult} {N : Nat} {tail : Bytes}
    {e : ParseExpressionError}
    (hp : ∀ bs i, BInstr bs i → bs.length ≤ N → Runs p bs (.Instruction i))
    (ht : ∀ m acc d, 0 < m → Fails (decodeExprLoop p m acc d) tail e) :
    ∀ (is : List Instr) (bs : Bytes) (m : Nat) (acc : List Instr) (d : Bool), BInstrs bs is →
      bs.length ≤ N → bs.length < m → Fails (decodeExprLoop p m acc d) (bs ++ tail) e := by
  intro is
  induction is with
  | nil =>
    intro bs m acc d h hN hm
    cases h
    exact ht m acc d (by simpa using hm)
  | cons i is ih =>
    intro bs m acc d h hN hm
    cases h with
    | @cons b bs _ _ h1 h2 =>
      have := BInstr.length_pos h1
      simp only [List.length_append] at hN hm
      match m, hm with
      | m + 1, hm =>
        rw [List.append_assoc]
        exact Fails.bind2 (Runs.mapErr (hp _ _ h1 (by omega)))
          (ih bs m (acc ++ [i]) _ h2 (by omega) (by omega))

/-- A failure directly inside a construct is a failure of the construct. -/
theorem parse_opener_fails {c : Ctx} {o tail : Bytes} {e : ParseError} {n : Nat} (h : Opener c o)
    (hl : o.length ≤ n) (ht : Fails (R := R) (parseSeq (parse n) n (c == .then) []) tail e) :
    Fails (R := R) (parse (n + 1)) (o ++ tail) e := by
  cases h with
  | @block b bt h1 =>
    refine Fails.bind2 (b1 := [0x02]) (b2 := b ++ tail) (Runs.mapErr (Runs.readExact (R := R) rfl)) ?_
    refine Fails.ite_neg (by decide) (Fails.ite_neg (by decide) (Fails.ite_pos (by decide) ?_))
    exact Fails.bind2 (Runs.mapErr (BlockType.runs h1)) (Fails.bind1 ht)
  | @loop b bt h1 =>
    refine Fails.bind2 (b1 := [0x03]) (b2 := b ++ tail) (Runs.mapErr (Runs.readExact (R := R) rfl)) ?_
    refine Fails.ite_neg (by decide) (Fails.ite_neg (by decide) (Fails.ite_pos (by decide) ?_))
    exact Fails.bind2 (Runs.mapErr (BlockType.runs h1)) (Fails.bind1 ht)
  | @«then» b bt h1 =>
    refine Fails.bind2 (b1 := [0x04]) (b2 := b ++ tail) (Runs.mapErr (Runs.readExact (R := R) rfl)) ?_
    refine Fails.ite_neg (by decide) (Fails.ite_neg (by decide) (Fails.ite_pos (by decide) ?_))
    exact Fails.bind2 (Runs.mapErr (BlockType.runs h1)) (Fails.bind1 ht)
  | @«else» b b2 bt is h1 h2 =>
    simp only [List.length_cons, List.length_append, List.length_nil] at hl
    have e1 : (0x04 :: (b ++ (b2 ++ [0x05]))) ++ tail = [0x04] ++ (b ++ ((b2 ++ [0x05]) ++ tail)) := by
      simp
    rw [e1]
    refine Fails.bind2 (Runs.mapErr (Runs.readExact (R := R) rfl)) ?_
    refine Fails.ite_neg (by decide) (Fails.ite_neg (by decide) (Fails.ite_pos (by decide) ?_))
    refine Fails.bind2 (Runs.mapErr (BlockType.runs h1)) ?_
    have hr : Runs (R := R) (parseSeq (parse n) n (0x04 == (0x04 : UInt8)) []) (b2 ++ [0x05])
        (is, .Else) := by
      match n, hl with
      | n + 1, hl =>
        exact parseSeq_runs (parse_runs _) (parse_else n) (.inr ⟨rfl, rfl⟩) is b2 _ [] h2 (by omega)
          (by omega)
    refine Fails.bind2 hr ?_
    refine Fails.ite_neg (by decide) (Fails.ite_neg (by decide) (Fails.ite_pos rfl ?_))
    exact Fails.bind1 ht
  | @«try» b b2 bt cs h1 h2 =>
    have e1 : (0x1F :: (b ++ b2)) ++ tail = [0x1F] ++ (b ++ (b2 ++ tail)) := by simp
    rw [e1]
    refine Fails.bind2 (Runs.mapErr (Runs.readExact (R := R) rfl)) ?_
    refine Fails.ite_neg (by decide) (Fails.ite_neg (by decide) (Fails.ite_neg (by decide)
      (Fails.ite_pos rfl ?_)))
    refine Fails.bind2 (Runs.mapErr (BlockType.runs h1)) ?_
    refine Fails.bind2 (Runs.mapErr (list_runs (fun _ _ => Catch.runs) h2)) ?_
    exact Fails.bind1 ht

theorem within_fails {c0 c : Ctx} {bs tail : Bytes} {e : ParseError} (h : Within c0 c bs)
    (ht : ∀ n m acc, 0 < n → 0 < m →
      Fails (R := R) (parseSeq (parse n) m (c == .then) acc) tail e) :
    ∀ n m acc, bs.length < n → bs.length < m →
      Fails (R := R) (parseSeq (parse n) m (c0 == .then) acc) (bs ++ tail) e := by
  induction h with
  | @here c bs is h =>
    intro n m acc hn hm
    exact parseSeq_fails (parse_runs n) (fun m acc hm => ht n m acc (by omega) hm) is bs m acc h
      (by omega) hm
  | @enter c0 c1 c pre o bs is h1 h2 _ ih =>
    intro n m acc hn hm
    simp only [List.length_append] at hn hm
    rw [List.append_assoc, List.append_assoc]
    refine parseSeq_fails (parse_runs n) ?_ is pre m acc h1 (by omega) (by omega)
    intro m' acc' hm'
    match m', hm', n, hn with
    | m' + 1, _, n + 1, hn =>
      have ho : 0 < o.length := by cases h2 <;> simp
      exact Fails.bind1 (parse_opener_fails h2 (by omega) (ih ht n n [] (by omega) (by omega)))

theorem exprLoop_within_fails {c : Ctx} {bs tail : Bytes} {e : ParseError} (h : Within .expr c bs)
    (hc : c ≠ .expr) (ht : ∀ n m acc, 0 < n → 0 < m →
      Fails (R := R) (parseSeq (parse n) m (c == .then) acc) tail e) :
    ∀ n m acc d, bs.length < n → bs.length < m →
      Fails (R := R) (decodeExprLoop (parse n) m acc d) (bs ++ tail) (.ParseInstruction e) := by
  generalize hc0 : Ctx.expr = c0 at h hc
  cases h with
  | here h => exact absurd rfl (hc0 ▸ hc)
  | @enter _ c1 _ pre o bs is h1 h2 h3 =>
    intro n m acc d hn hm
    simp only [List.length_append] at hn hm
    rw [List.append_assoc, List.append_assoc]
    refine exprLoop_fails (parse_runs n) ?_ is pre m acc d h1 (by omega) (by omega)
    intro m' acc' d' hm'
    match m', hm', n, hn with
    | m' + 1, _, n + 1, hn =>
      have ho : 0 < o.length := by cases h2 <;> simp
      exact Fails.bind1 (Fails.mapErr (parse_opener_fails h2 (by omega)
        (within_fails h3 ht n n [] (by omega) (by omega))))

/-- If parsing one instruction fails on `tail`, so does an expression that gets there. -/
theorem expr_fails_of_parse {c : Ctx} {bs tail : Bytes} {e : ParseError} (h : Within .expr c bs)
    (ht : ∀ n, 0 < n → Fails (R := R) (parse n) tail e) :
    Fails (R := R) decodeExpr (bs ++ tail) (.ParseInstruction e) := by
  intro r rest ha
  have hw := avail_le r
  have hlen := congrArg List.length ha
  simp only [List.length_append] at hlen
  have main : Fails (R := R) (decodeExprLoop (parse (Read.weight r + 1)) (Read.weight r + 1) [] false)
      (bs ++ tail) (.ParseInstruction e) := by
    by_cases hc : c = .expr
    · subst hc
      generalize hc0 : Ctx.expr = c0 at h
      have h' := h
      cases h with
      | @here _ bs is h1 =>
        refine exprLoop_fails (parse_runs _) ?_ is bs _ [] _ h1 (by omega) (by omega)
        intro m acc d hm
        match m, hm with
        | m + 1, _ => exact Fails.bind1 (Fails.mapErr (ht _ (by omega)))
      | @enter _ c1 _ pre o bs is h1 h2 h3 =>
        exfalso
        subst hc0
        have : ∀ {a b : Ctx} {x : Bytes}, Within a b x → a ≠ .expr → b ≠ .expr := by
          intro a b x hx
          induction hx with
          | here _ => exact id
          | enter _ h2 _ ih => intro _; exact ih (by cases h2 <;> simp)
        exact this h3 (by cases h2 <;> simp) rfl
    · refine exprLoop_within_fails h hc ?_ _ _ [] false (by omega) (by omega)
      intro n m acc hn hm
      match m, hm with
      | m + 1, _ => exact Fails.bind1 (ht n hn)
  exact main r rest ha

/-! ### Unassigned opcodes -/

theorem u0 : BU32 [0x00] 0 := .last (by decide) (by decide)

theorem heap0 : BHeapType [0x70] (.Ht .Func) := .abs .func

theorem parseFB_unassigned {n : UInt32} (h : Unassigned (.fb n.toNat)) :
    (parseFB n : Dec R ParseError Instr) = Dec.err (.InvalidMarkerByteAfterFB n) := by
  unfold parseFB
  iterate 19
    refine (if_neg ?_).trans ?_
    · rintro rfl
      apply h
      first
        | exact ⟨_, _, .structNew u0⟩
        | exact ⟨_, _, .structNewDefault u0⟩
        | exact ⟨_, _, .structGet u0 u0⟩
        | exact ⟨_, _, .structGetS u0 u0⟩
        | exact ⟨_, _, .structGetU u0 u0⟩
        | exact ⟨_, _, .structSet u0 u0⟩
        | exact ⟨_, _, .arrayNew u0⟩
        | exact ⟨_, _, .arrayNewDefault u0⟩
        | exact ⟨_, _, .arrayNewFixed u0 u0⟩
        | exact ⟨_, _, .arrayNewData u0 u0⟩
        | exact ⟨_, _, .arrayNewElem u0 u0⟩
        | exact ⟨_, _, .arrayGet u0⟩
        | exact ⟨_, _, .arrayGetS u0⟩
        | exact ⟨_, _, .arrayGetU u0⟩
        | exact ⟨_, _, .arraySet u0⟩
        | exact ⟨_, _, .arrayFill u0⟩
        | exact ⟨_, _, .arrayCopy u0 u0⟩
        | exact ⟨_, _, .arrayInitData u0 u0⟩
        | exact ⟨_, _, .arrayInitElem u0 u0⟩
  refine (if_neg ?_).trans ?_
  · rintro ⟨h1, h2⟩
    apply h
    rw [UInt32.le_iff_toNat_le] at h1 h2
    have h1 : 20 ≤ n.toNat := h1
    have h2 : n.toNat ≤ 23 := h2
    have : n.toNat = 20 ∨ n.toNat = 21 ∨ n.toNat = 22 ∨ n.toNat = 23 := by omega
    rcases this with e | e | e | e <;> rw [e]
    · exact ⟨_, _, .refTest heap0⟩
    · exact ⟨_, _, .refTestNull heap0⟩
    · exact ⟨_, _, .refCast heap0⟩
    · exact ⟨_, _, .refCastNull heap0⟩
  refine (if_neg ?_).trans ?_
  · rintro (rfl | rfl)
    · exact h ⟨_, _, .brOnCast .nn u0 heap0 heap0⟩
    · exact h ⟨_, _, .brOnCastFail .nn u0 heap0 heap0⟩
  cases hl : plainFBTable.lookup n with
  | none => rfl
  | some p =>
    exfalso
    have := plainFB_ok _ (lookup_mem hl)
    exact h ⟨[], .plain p, this ▸ Leaf.plain⟩

theorem parseFC_unassigned {n : UInt32} (h : Unassigned (.fc n.toNat)) :
    (parseFC n : Dec R ParseError Instr) = Dec.err (.InvalidMarkerByteAfterFC n) := by
  unfold parseFC
  iterate 10
    refine (if_neg ?_).trans ?_
    · rintro rfl
      apply h
      first
        | exact ⟨_, _, .memoryInit u0 u0⟩
        | exact ⟨_, _, .dataDrop u0⟩
        | exact ⟨_, _, .memoryCopy u0 u0⟩
        | exact ⟨_, _, .memoryFill u0⟩
        | exact ⟨_, _, .tableInit u0 u0⟩
        | exact ⟨_, _, .elemDrop u0⟩
        | exact ⟨_, _, .tableCopy u0 u0⟩
        | exact ⟨_, _, .tableGrow u0⟩
        | exact ⟨_, _, .tableSize u0⟩
        | exact ⟨_, _, .tableFill u0⟩
  cases hl : plainFCTable.lookup n with
  | none => rfl
  | some p =>
    exfalso
    have := plainFC_ok _ (lookup_mem hl)
    exact h ⟨[], .plain p, this ▸ Leaf.plain⟩

theorem memarg0 : BMemarg [0x00, 0x00] ⟨⟨0⟩, 0, 0⟩ :=
  .mem0 (b1 := [0x00]) (b2 := [0x00]) u0 (by decide) (.last (by decide) (by decide))

theorem parseFD_unassigned {n : UInt32} (h : Unassigned (.fd n.toNat)) :
    (parseFD n : Dec R ParseError Instr) = Dec.err (.Vector (.InvalidOpcode n)) := by
  unfold parseFD
  refine (if_neg ?_).trans ?_
  · intro hc
    cases hl : memFDTable.lookup n with
    | none => exact memFD_total hc hl
    | some p => exact h ⟨_, .mem p _, memFD_ok _ (lookup_mem hl) ▸ Leaf.mem memarg0⟩
  refine (if_neg ?_).trans ?_
  · intro hc
    cases hl : memLaneFDTable.lookup n with
    | none => exact memLaneFD_total hc hl
    | some p => exact h ⟨_, .memLane p _ ⟨0⟩, memLaneFD_ok _ (lookup_mem hl) ▸
        Leaf.memLane memarg0 rfl⟩
  refine (if_neg ?_).trans ?_
  · rintro rfl; exact h ⟨_, _, .v128Const (v := ⟨List.replicate 16 0, rfl⟩)⟩
  refine (if_neg ?_).trans ?_
  · rintro rfl; exact h ⟨_, _, .i8x16Shuffle (v := ⟨List.replicate 16 0, rfl⟩)⟩
  refine (if_neg ?_).trans ?_
  · intro hc
    cases hl : laneFDTable.lookup n with
    | none => exact laneFD_total hc hl
    | some p => exact h ⟨_, .lane p ⟨0⟩, laneFD_ok _ (lookup_mem hl) ▸ Leaf.lane rfl⟩
  cases hl : plainFDTable.lookup n with
  | none => rfl
  | some p =>
    exfalso
    exact h ⟨[], .plain p, plainFD_ok _ (lookup_mem hl) ▸ Leaf.plain⟩

theorem LeafB {b : UInt8} {imms : Bytes} {i : Instr} (h : Leaf (.byte b) imms i) :
    BInstr (b :: imms) i := BInstr.leaf (b := [b]) .byte h

theorem list0 {α : Type} {B : Bytes → α → Prop} : BList B [0x00] [] :=
  .mk (b := [0x00]) (bs := []) (xs := []) (show BU 32 [0x00] 0 from u0) .nil

theorem s0 {N : Nat} : BS N [0x00] 0 := by
  exact BS.pos (n := 0) (by decide) (Nat.two_pow_pos _)

theorem parseSimple_unassigned {b : UInt8} (h : UnassignedByte b) :
    (parseSimple b : Dec R ParseError Instr) = Dec.err (.InvalidOpcode b) := by
  obtain ⟨_, _, h⟩ := h
  have leaf : ∀ {imms : Bytes} {i : Instr}, Leaf (.byte b) imms i → False := fun hl => h ⟨_, _, LeafB hl⟩
  unfold parseSimple
  iterate 16
    refine (if_neg ?_).trans ?_
    · rintro rfl
      first
        | exact leaf .select
        | exact leaf (.selectT list0)
        | exact leaf (.throw u0)
        | exact leaf (.br u0)
        | exact leaf (.brIf u0)
        | exact leaf (.brTable list0 u0)
        | exact leaf (.call u0)
        | exact leaf (.callIndirect u0 u0)
        | exact leaf (.returnCall u0)
        | exact leaf (.returnCallIndirect u0 u0)
        | exact leaf (.callRef u0)
        | exact leaf (.returnCallRef u0)
        | exact leaf (.brOnNull u0)
        | exact leaf (.brOnNonNull u0)
        | exact leaf (.refNull heap0)
        | exact leaf (.refFunc u0)
  refine (if_neg ?_).trans ?_
  · rintro rfl; exact h ⟨_, _, .leaf (b := [0xFB, 0x00]) (.fb u0) (.structNew u0)⟩
  iterate 7
    refine (if_neg ?_).trans ?_
    · rintro rfl
      first
        | exact leaf (.localGet u0)
        | exact leaf (.localSet u0)
        | exact leaf (.localTee u0)
        | exact leaf (.globalGet u0)
        | exact leaf (.globalSet u0)
        | exact leaf (.tableGet u0)
        | exact leaf (.tableSet u0)
  refine (if_neg ?_).trans ?_
  · intro hc
    cases hl : memTable.lookup b with
    | none => exact mem_total hc hl
    | some p => exact leaf (mem_ok _ (lookup_mem hl) ▸ Leaf.mem memarg0)
  iterate 6
    refine (if_neg ?_).trans ?_
    · rintro rfl
      first
        | exact leaf (.memorySize u0)
        | exact leaf (.memoryGrow u0)
        | exact leaf (.i32Const (v := 0) s0)
        | exact leaf (.i64Const (v := 0) s0)
        | exact leaf (.f32Const (b := [0, 0, 0, 0]) (v := 0) rfl)
        | exact leaf (.f64Const (b := [0, 0, 0, 0, 0, 0, 0, 0]) (v := 0) rfl)
  refine (if_neg ?_).trans ?_
  · rintro rfl; exact h ⟨_, _, .leaf (b := [0xFC, 0x09]) (.fc (.last (by decide) (by decide))) (.dataDrop u0)⟩
  refine (if_neg ?_).trans ?_
  · rintro rfl; exact h ⟨_, _, .leaf (b := [0xFD, 0x00]) (.fd u0) (.mem (op := .V128Load) memarg0)⟩
  cases hl : plainByteTable.lookup b with
  | none => rfl
  | some p => exact (leaf (plainByte_ok _ (lookup_mem hl) ▸ Leaf.plain)).elim

theorem parse_byte_fails {b : UInt8} (h : UnassignedByte b) (n : Nat) (hn : 0 < n) :
    Fails (R := R) (parse n) [b] (.InvalidOpcode b) := by
  match n, hn with
  | n + 1, _ =>
    have nb : ∀ bs i, ¬ BInstr (b :: bs) i := fun bs i hi => h.2.2 ⟨bs, i, hi⟩
    refine Fails.bind2 (b1 := [b]) (b2 := []) (Runs.mapErr (Runs.readExact rfl)) ?_
    refine Fails.ite_neg h.1 (Fails.ite_neg h.2.1 (Fails.ite_neg ?_ (Fails.ite_neg ?_ ?_)))
    · rintro ⟨h1, h2⟩
      rw [UInt8.le_iff_toNat_le] at h1 h2
      have h1 : 2 ≤ b.toNat := h1
      have h2 : b.toNat ≤ 4 := h2
      have : b.toNat = 2 ∨ b.toNat = 3 ∨ b.toNat = 4 := by omega
      rcases this with e | e | e
      · have : b = 0x02 := UInt8.toNat_inj.1 e
        subst this; exact nb _ _ (.block .empty .nil)
      · have : b = 0x03 := UInt8.toNat_inj.1 e
        subst this; exact nb _ _ (.loop .empty .nil)
      · have : b = 0x04 := UInt8.toNat_inj.1 e
        subst this; exact nb _ _ (.if .empty .nil)
    · rintro rfl; exact nb _ _ (.tryTable .empty list0 .nil)
    · rw [parseSimple_unassigned h]
      exact Fails.bind1 Fails.err

theorem parse_simple_fails {op : UInt8} {bs : Bytes} {e : ParseError}
    (h : op = 0xFB ∨ op = 0xFC ∨ op = 0xFD) (hf : Fails (R := R) (parseSimple op) bs e) (n : Nat)
    (hn : 0 < n) : Fails (R := R) (parse n) (op :: bs) e := by
  match n, hn with
  | n + 1, _ =>
    refine Fails.bind2 (b1 := [op]) (b2 := bs) (Runs.mapErr (Runs.readExact rfl)) ?_
    rcases h with rfl | rfl | rfl <;>
    exact Fails.ite_neg (by decide) (Fails.ite_neg (by decide) (Fails.ite_neg (by decide)
      (Fails.ite_neg (by decide) (Fails.bind1 hf))))

theorem parse_fb_fails {bs : Bytes} {k : UInt32} (hb : BU32 bs k) (h : Unassigned (.fb k.toNat))
    (n : Nat) (hn : 0 < n) :
    Fails (R := R) (parse n) (0xFB :: bs) (.InvalidMarkerByteAfterFB k) := by
  refine parse_simple_fails (.inl rfl) ?_ n hn
  rw [← List.append_nil bs]
  refine Fails.bind2 (Runs.mapErr (decodeU32_runs hb)) ?_
  rw [parseFB_unassigned h]; exact Fails.err

theorem parse_fc_fails {bs : Bytes} {k : UInt32} (hb : BU32 bs k) (h : Unassigned (.fc k.toNat))
    (n : Nat) (hn : 0 < n) :
    Fails (R := R) (parse n) (0xFC :: bs) (.InvalidMarkerByteAfterFC k) := by
  refine parse_simple_fails (.inr (.inl rfl)) ?_ n hn
  rw [← List.append_nil bs]
  refine Fails.bind2 (Runs.mapErr (decodeU32_runs hb)) ?_
  rw [parseFC_unassigned h]; exact Fails.err

theorem parse_fd_fails {bs : Bytes} {k : UInt32} (hb : BU32 bs k) (h : Unassigned (.fd k.toNat))
    (n : Nat) (hn : 0 < n) :
    Fails (R := R) (parse n) (0xFD :: bs) (.Vector (.InvalidOpcode k)) := by
  refine parse_simple_fails (.inr (.inr rfl)) ?_ n hn
  rw [← List.append_nil bs]
  refine Fails.bind2 (Runs.mapErr (decodeU32_runs hb)) ?_
  rw [parseFD_unassigned h]; exact Fails.err

end Wadec
