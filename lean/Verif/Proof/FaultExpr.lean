import Verif.Proof.FaultLeaf

/-! C55: the errors of expressions. -/

namespace Wadec

open LawfulRead Spec

variable {R : Type} [LawfulRead R]

theorem parseSeq_failsIn {p : Dec R ParseError ParseResult} {N : Nat} {ae : Bool} {tail : Bytes} {x : End}
    {e : ParseError} (hp : ∀ bs i, BInstr bs i → bs.length ≤ N → Runs p bs (.Instruction i))
    (ht : ∀ m acc, 0 < m → FailsIn (parseSeq p m ae acc) x tail e) :
    ∀ (is : List Instr) (bs : Bytes) (m : Nat) (acc : List Instr), BInstrs bs is → bs.length ≤ N →
      bs.length < m → FailsIn (parseSeq p m ae acc) x (bs ++ tail) e := by
  intro is
  induction is with
  | nil =>
    intro bs m acc h hN hm
    cases h
    exact ht m acc (by simpa using hm)
  | cons i is ih =>
    intro bs m acc h hN hm
    cases h with
    | @cons b bs _ _ h1 h2 =>
      have := BInstr.length_pos h1
      simp only [List.length_append] at hN hm
      match m, hm with
      | m + 1, hm =>
        rw [List.append_assoc]
        exact FailsIn.bind2 (hp _ _ h1 (by omega)) (ih bs m (acc ++ [i]) h2 (by omega) (by omega))

theorem exprLoop_failsIn {p : Dec R ParseError ParseResult} {N : Nat} {tail : Bytes} {x : End}
    {e : ParseExpressionError}
    (hp : ∀ bs i, BInstr bs i → bs.length ≤ N → Runs p bs (.Instruction i))
    (ht : ∀ m acc d, 0 < m → FailsIn (decodeExprLoop p m acc d) x tail e) :
    ∀ (is : List Instr) (bs : Bytes) (m : Nat) (acc : List Instr) (d : Bool), BInstrs bs is →
      bs.length ≤ N → bs.length < m → FailsIn (decodeExprLoop p m acc d) x (bs ++ tail) e := by
  intro is
  induction is with
  | nil =>
    intro bs m acc d h hN hm
    cases h
    exact ht m acc d (by simpa using hm)
  | cons i is ih =>
    intro bs m acc d h hN hm
    cases h with
    | @cons b bs _ _ h1 h2 =>
      have := BInstr.length_pos h1
      simp only [List.length_append] at hN hm
      match m, hm with
      | m + 1, hm =>
        rw [List.append_assoc]
        exact FailsIn.bind2 (Runs.mapErr (hp _ _ h1 (by omega)))
          (ih bs m (acc ++ [i]) _ h2 (by omega) (by omega))

/-- A failure directly inside a construct is a failure of the construct. -/
theorem parse_opener_failsIn {c : Ctx} {o tail : Bytes} {x : End} {e : ParseError} {n : Nat} (h : Opener c o)
    (hl : o.length ≤ n) (ht : FailsIn (R := R) (parseSeq (parse n) n (c == .then) []) x tail e) :
    FailsIn (R := R) (parse (n + 1)) x (o ++ tail) e := by
  cases h with
  | @block b bt h1 =>
    refine FailsIn.bind2 (b1 := [0x02]) (b2 := b ++ tail) (Runs.mapErr (Runs.readExact (R := R) rfl)) ?_
    refine FailsIn.ite_neg (by decide) (FailsIn.ite_neg (by decide) (FailsIn.ite_pos (by decide) ?_))
    exact FailsIn.bind2 (Runs.mapErr (BlockType.runs h1)) (FailsIn.bind1 ht)
  | @loop b bt h1 =>
    refine FailsIn.bind2 (b1 := [0x03]) (b2 := b ++ tail) (Runs.mapErr (Runs.readExact (R := R) rfl)) ?_
    refine FailsIn.ite_neg (by decide) (FailsIn.ite_neg (by decide) (FailsIn.ite_pos (by decide) ?_))
    exact FailsIn.bind2 (Runs.mapErr (BlockType.runs h1)) (FailsIn.bind1 ht)
  | @«then» b bt h1 =>
    refine FailsIn.bind2 (b1 := [0x04]) (b2 := b ++ tail) (Runs.mapErr (Runs.readExact (R := R) rfl)) ?_
    refine FailsIn.ite_neg (by decide) (FailsIn.ite_neg (by decide) (FailsIn.ite_pos (by decide) ?_))
    exact FailsIn.bind2 (Runs.mapErr (BlockType.runs h1)) (FailsIn.bind1 ht)
  | @«else» b b2 bt is h1 h2 =>
    simp only [List.length_cons, List.length_append, List.length_nil] at hl
    have e1 : (0x04 :: (b ++ (b2 ++ [0x05]))) ++ tail = [0x04] ++ (b ++ ((b2 ++ [0x05]) ++ tail)) := by
      simp
    rw [e1]
    refine FailsIn.bind2 (Runs.mapErr (Runs.readExact (R := R) rfl)) ?_
    refine FailsIn.ite_neg (by decide) (FailsIn.ite_neg (by decide) (FailsIn.ite_pos (by decide) ?_))
    refine FailsIn.bind2 (Runs.mapErr (BlockType.runs h1)) ?_
    have hr : Runs (R := R) (parseSeq (parse n) n (0x04 == (0x04 : UInt8)) []) (b2 ++ [0x05])
        (is, .Else) := by
      match n, hl with
      | n + 1, hl =>
        exact parseSeq_runs (parse_runs _) (parse_else n) (.inr ⟨rfl, rfl⟩) is b2 _ [] h2 (by omega)
          (by omega)
    refine FailsIn.bind2 hr ?_
    refine FailsIn.ite_neg (by decide) (FailsIn.ite_neg (by decide) (FailsIn.ite_pos rfl ?_))
    exact FailsIn.bind1 ht
  | @«try» b b2 bt cs h1 h2 =>
    have e1 : (0x1F :: (b ++ b2)) ++ tail = [0x1F] ++ (b ++ (b2 ++ tail)) := by simp
    rw [e1]
    refine FailsIn.bind2 (Runs.mapErr (Runs.readExact (R := R) rfl)) ?_
    refine FailsIn.ite_neg (by decide) (FailsIn.ite_neg (by decide) (FailsIn.ite_neg (by decide)
      (FailsIn.ite_pos rfl ?_)))
    refine FailsIn.bind2 (Runs.mapErr (BlockType.runs h1)) ?_
    refine FailsIn.bind2 (Runs.mapErr (list_runs (fun _ _ => Catch.runs) h2)) ?_
    exact FailsIn.bind1 ht

theorem within_failsIn {c0 c : Ctx} {bs tail : Bytes} {x : End} {e : ParseError} (h : Within c0 c bs)
    (ht : ∀ n m acc, 0 < n → 0 < m →
      FailsIn (R := R) (parseSeq (parse n) m (c == .then) acc) x tail e) :
    ∀ n m acc, bs.length < n → bs.length < m →
      FailsIn (R := R) (parseSeq (parse n) m (c0 == .then) acc) x (bs ++ tail) e := by
  induction h with
  | @here c bs is h =>
    intro n m acc hn hm
    exact parseSeq_failsIn (parse_runs n) (fun m acc hm => ht n m acc (by omega) hm) is bs m acc h
      (by omega) hm
  | @enter c0 c1 c pre o bs is h1 h2 _ ih =>
    intro n m acc hn hm
    simp only [List.length_append] at hn hm
    rw [List.append_assoc, List.append_assoc]
    refine parseSeq_failsIn (parse_runs n) ?_ is pre m acc h1 (by omega) (by omega)
    intro m' acc' hm'
    match m', hm', n, hn with
    | m' + 1, _, n + 1, hn =>
      have ho : 0 < o.length := by cases h2 <;> simp
      exact FailsIn.bind1 (parse_opener_failsIn h2 (by omega) (ih ht n n [] (by omega) (by omega)))

theorem exprLoop_within_failsIn {c : Ctx} {bs tail : Bytes} {x : End} {e : ParseError} (h : Within .expr c bs)
    (hc : c ≠ .expr) (ht : ∀ n m acc, 0 < n → 0 < m →
      FailsIn (R := R) (parseSeq (parse n) m (c == .then) acc) x tail e) :
    ∀ n m acc d, bs.length < n → bs.length < m →
      FailsIn (R := R) (decodeExprLoop (parse n) m acc d) x (bs ++ tail) (.ParseInstruction e) := by
  generalize hc0 : Ctx.expr = c0 at h hc
  cases h with
  | here h => exact absurd rfl (hc0 ▸ hc)
  | @enter _ c1 _ pre o bs is h1 h2 h3 =>
    intro n m acc d hn hm
    simp only [List.length_append] at hn hm
    rw [List.append_assoc, List.append_assoc]
    refine exprLoop_failsIn (parse_runs n) ?_ is pre m acc d h1 (by omega) (by omega)
    intro m' acc' d' hm'
    match m', hm', n, hn with
    | m' + 1, _, n + 1, hn =>
      have ho : 0 < o.length := by cases h2 <;> simp
      exact FailsIn.bind1 (FailsIn.mapErr (parse_opener_failsIn h2 (by omega)
        (within_failsIn h3 ht n n [] (by omega) (by omega))))

/-- If parsing one instruction fails on `tail`, so does an expression that gets there. -/
theorem expr_failsIn_of_parse {c : Ctx} {bs tail : Bytes} {x : End} {e : ParseError} (h : Within .expr c bs)
    (ht : ∀ n, 0 < n → FailsIn (R := R) (parse n) x tail e) :
    FailsIn (R := R) decodeExpr x (bs ++ tail) (.ParseInstruction e) := by
  intro r ha hx
  have hw := avail_le r
  have hlen := congrArg List.length ha
  simp only [List.length_append] at hlen
  have main : FailsIn (R := R) (decodeExprLoop (parse (Read.weight r + 1)) (Read.weight r + 1) [] false)
      x (bs ++ tail) (.ParseInstruction e) := by
    by_cases hc : c = .expr
    · subst hc
      generalize hc0 : Ctx.expr = c0 at h
      have h' := h
      cases h with
      | @here _ bs is h1 =>
        refine exprLoop_failsIn (parse_runs _) ?_ is bs _ [] _ h1 (by omega) (by omega)
        intro m acc d hm
        match m, hm with
        | m + 1, _ => exact FailsIn.bind1 (FailsIn.mapErr (ht _ (by omega)))
      | @enter _ c1 _ pre o bs is h1 h2 h3 =>
        exfalso
        subst hc0
        have : ∀ {a b : Ctx} {x : Bytes}, Within a b x → a ≠ .expr → b ≠ .expr := by
          intro a b x hx
          induction hx with
          | here _ => exact id
          | enter _ h2 _ ih => intro _; exact ih (by cases h2 <;> simp)
        exact this h3 (by cases h2 <;> simp) rfl
    · refine exprLoop_within_failsIn h hc ?_ _ _ [] false (by omega) (by omega)
      intro n m acc hn hm
      match m, hm with
      | m + 1, _ => exact FailsIn.bind1 (ht n hn)
  exact main r ha hx


theorem within_ne_expr {a b : Ctx} {x : Bytes} (hx : Within a b x) : a ≠ .expr → b ≠ .expr := by
  induction hx with
  | here _ => exact id
  | enter _ h2 _ ih => intro _; exact ih (by cases h2 <;> simp)

theorem Within.cons {c c' : Ctx} {b p : Bytes} {i : Instr} (h1 : BInstr b i) (h : Within c c' p) :
    Within c c' (b ++ p) := by
  cases h with
  | here h => exact .here (.cons h1 h)
  | enter h2 h3 h4 =>
    rw [← List.append_assoc]
    exact .enter (.cons h1 h2) h3 h4

/-- A defect inside the construct `c`. -/
def SFault (c : Ctx) (x : End) (bs : Bytes) (e : ParseError) : Prop :=
  ∃ c' p t, Within c c' p ∧ bs = p ++ t ∧
    (FOp x t e ∨ (c' ≠ .then ∧ (∃ b, t = 0x05 :: b) ∧ e = .Control .UnexpectedElse))

/-- A defect of one instruction. -/
def PFault (x : End) (bs : Bytes) (e : ParseError) : Prop :=
  FOp x bs e ∨ ∃ c o t, Opener c o ∧ bs = o ++ t ∧ SFault c x t e

theorem PFault.seq {c : Ctx} {x : End} {bs : Bytes} {e : ParseError} (h : PFault x bs e) : SFault c x bs e := by
  rcases h with h | ⟨c1, o, t, h1, rfl, c', p, t', h2, rfl, h3⟩
  · exact ⟨c, [], bs, .here .nil, rfl, .inl h⟩
  · exact ⟨c', [] ++ (o ++ p), t', .enter .nil h1 h2, by simp, h3⟩

theorem SFault.cons {c : Ctx} {x : End} {b bs : Bytes} {i : Instr} {e : ParseError} (h1 : BInstr b i)
    (h : SFault c x bs e) : SFault c x (b ++ bs) e := by
  obtain ⟨c', p, t, h2, rfl, h3⟩ := h
  exact ⟨c', b ++ p, t, Within.cons h1 h2, by simp, h3⟩

theorem parseSeq_errs {p : Dec R ParseError ParseResult} (hs : Sound p BParse) (hp : Errs p PFault) {c : Ctx} :
    ∀ (n : Nat) (acc : List Instr), Errs (parseSeq p n (c == .then) acc) (SFault c) := by
  intro n
  induction n with
  | zero => intro acc; exact Errs.fuel
  | succ n ih =>
    intro acc
    refine Errs.bind (Errs.mono hp fun x bs e h => h.seq) hs fun v b hv => ?_
    cases v with
    | Instruction i => exact Errs.mono (ih _) fun x t e h => h.cons hv
    | End => exact Errs.pure
    | Else =>
      cases hv
      refine Errs.ite (fun _ => Errs.pure) fun hc => Errs.err fun x t => ?_
      exact ⟨c, [], _, .here .nil, rfl, .inr ⟨by simpa using hc, ⟨t, rfl⟩, rfl⟩⟩

theorem parse_errs : ∀ n, Errs (R := R) (parse n) PFault := by
  intro n
  induction n with
  | zero => exact Errs.fuel
  | succ n ih =>
    refine Errs.bind (P := fun bs v => bs = v ∧ v.length = 1) (Errs.mapErr (Errs.mono bytes_faults.errs ?_))
      (Sound.mono (Sound.mapErr Sound.readExact) fun bs v h => by simpa [eq_comm] using h) ?_
    · rintro x bs e ⟨h⟩
      match bs, h with
      | [], _ => exact .inl .missing
    · rintro v b ⟨rfl, hl⟩
      match b, hl with
      | [op], _ =>
        have hsub : op ∉ [0x0B, 0x05] → ¬ (0x02 ≤ op ∧ op ≤ 0x04) → op ≠ 0x1F →
            op ∉ [0x0B, 0x05, 0x02, 0x03, 0x04, 0x1F] := by
          intro h1 h2 h3 h4
          simp only [List.mem_cons, List.not_mem_nil, or_false] at h1 h4
          rcases h4 with rfl | rfl | rfl | rfl | rfl | rfl
          · exact h1 (.inl rfl)
          · exact h1 (.inr rfl)
          · exact h2 (by decide)
          · exact h2 (by decide)
          · exact h2 (by decide)
          · exact h3 rfl
        refine Errs.ite (fun _ => Errs.pure) fun h0 => Errs.ite (fun _ => Errs.pure) fun h5 =>
          Errs.ite (fun ho => ?_) fun hn => Errs.ite ?_ fun hn2 => ?_
        · have hop : op = 0x02 ∨ op = 0x03 ∨ op = 0x04 := by
            simp only [UInt8.le_iff_toNat_le] at ho
            simp only [← UInt8.toNat_inj]
            simp at ho ⊢
            omega
          refine Errs.bind (Errs.mapErr (Errs.mono BlockType.faults.errs fun x b e h => ?_))
            (Sound.mapErr BlockType.sound) fun bt b1 h1 => ?_
          · exact .inl (.blockType (by rcases hop with rfl | rfl | rfl <;> simp) h)
          rcases hop with rfl | rfl | rfl
          · refine Errs.bind (Errs.mono (parseSeq_errs (parse_sound n) ih (c := .block) n []) fun x t e h =>
              .inr ⟨_, _, _, .block h1, by simp, h⟩) (parseSeq_sound (parse_sound n) n _ []) ?_
            rintro ⟨in1, parsed⟩ b2 _
            exact Errs.ite (fun _ => Errs.pure) fun h => absurd rfl h
          · refine Errs.bind (Errs.mono (parseSeq_errs (parse_sound n) ih (c := .loop) n []) fun x t e h =>
              .inr ⟨_, _, _, .loop h1, by simp, h⟩) (parseSeq_sound (parse_sound n) n _ []) ?_
            rintro ⟨in1, parsed⟩ b2 _
            exact Errs.ite (fun _ => Errs.pure) fun _ => Errs.ite (fun _ => Errs.pure) fun h => absurd rfl h
          · refine Errs.bind (Errs.mono (parseSeq_errs (parse_sound n) ih (c := .then) n []) fun x t e h =>
              .inr ⟨_, _, _, .then h1, by simp, h⟩) (parseSeq_sound (parse_sound n) n _ []) ?_
            rintro ⟨in1, parsed⟩ b2 ⟨is, b, hacc, h2, h3⟩
            refine Errs.ite (fun h => absurd h (by decide)) fun _ => Errs.ite (fun h => absurd h (by decide)) fun _ =>
              Errs.ite (fun _ => ?_) fun h => absurd rfl h
            rcases h3 with ⟨h3, rfl⟩ | ⟨h3, _, rfl⟩
            · simp only at h3; subst h3
              exact Errs.pure
            · simp only at h3; subst h3
              exact Errs.last (Errs.mono (parseSeq_errs (parse_sound n) ih (c := .else) n []) fun x t e h =>
                .inr ⟨_, _, _, .else h1 h2, by simp, h⟩)
        · rintro rfl
          refine Errs.bind (Errs.mapErr (Errs.mono BlockType.faults.errs fun x b e h =>
            .inl (.blockType (by simp) h))) (Sound.mapErr BlockType.sound) fun bt b1 h1 => ?_
          refine Errs.bind (Errs.mapErr (Errs.mono catches_faults.errs fun x b e h =>
            .inl (by simpa using FOp.catches h1 h))) (Sound.mapErr (list_sound Catch.sound)) fun cs b2 h2 => ?_
          exact Errs.last (Errs.mono (parseSeq_errs (parse_sound n) ih (c := .try) n []) fun x t e h =>
            .inr ⟨_, _, _, .try h1 h2, by simp, h⟩)
        · exact Errs.last (Errs.mono (parseSimple_errs op (hsub (by simp [h0, h5]) hn hn2)) fun x t e h => .inl h)

theorem exprLoop_errs {p : Dec R ParseError ParseResult} (hs : Sound p BParse) (hp : Errs p PFault) :
    ∀ (n : Nat) (acc : List Instr) (d : Bool), Errs (decodeExprLoop p n acc d) (fun x bs e =>
      (∃ e' q l t, e = .ParseInstruction e' ∧ BInstrs q l ∧ bs = q ++ t ∧ PFault x t e') ∨
      ∃ q l b, BInstrs q l ∧ bs = q ++ 0x05 :: b ∧ e = .UnexpectedElse) := by
  intro n
  induction n with
  | zero => intro acc d; exact Errs.fuel
  | succ n ih =>
    intro acc d
    refine Errs.bind (Errs.mapErr (Errs.mono hp fun x bs e h => .inl ⟨e, [], [], bs, rfl, .nil, rfl, h⟩)) (Sound.mapErr hs)
      fun v b hv => ?_
    cases v with
    | Instruction i =>
      refine Errs.mono (ih _ _) ?_
      rintro x t e (⟨e', q, l, t', rfl, h1, rfl, h⟩ | ⟨q, l, b', h1, rfl, rfl⟩)
      · exact .inl ⟨e', b ++ q, i :: l, t', rfl, .cons hv h1, by simp, h⟩
      · exact .inr ⟨b ++ q, i :: l, b', .cons hv h1, by simp, rfl⟩
    | End => exact Errs.pure
    | Else =>
      cases hv
      exact Errs.err fun x t => .inr ⟨[], [], t, .nil, rfl, rfl⟩

theorem FOp.failsIn {x : End} {bs : Bytes} {e : ParseError} (h : FOp x bs e) (n : Nat) (hn : 0 < n) :
    FailsIn (R := R) (parse n) x bs e := by
  have sub : ∀ {op : UInt8} {t : Bytes}, op ∈ [0xFB, 0xFC, 0xFD] → FailsIn (R := R) (parseSimple op) x t e →
      FailsIn (R := R) (parse n) x (op :: t) e := by
    intro op t hop hf
    refine parse_simple_failsIn ?_ hf n hn
    simp only [List.mem_cons, List.not_mem_nil, or_false] at hop
    rcases hop with rfl | rfl | rfl <;> decide
  have fb : ∀ {f : UInt32 → Dec R ParseError Instr} {t : Bytes}, FailsIn (R := R) (decodeU32.mapErr
      (fun e => ParseError.Reference (.ReadSubOpcode e)) >>= parseFB) x t e → FailsIn (R := R) (parseSimple 0xFB) x t e := by
    intro f t h; exact h
  have fc : ∀ {t : Bytes}, FailsIn (R := R) (decodeU32.mapErr
      (fun e => ParseError.Numeric (.ReadOpcode e)) >>= parseFC) x t e → FailsIn (R := R) (parseSimple 0xFC) x t e := by
    intro t h; exact h
  have fd : ∀ {t : Bytes}, FailsIn (R := R) (decodeU32.mapErr
      (fun e => ParseError.Vector (.ReadOpcode e)) >>= parseFD) x t e → FailsIn (R := R) (parseSimple 0xFD) x t e := by
    intro t h; exact h
  cases h with
  | missing =>
    match n, hn with
    | n + 1, _ => exact FailsIn.bind1 (FailsIn.mapErr (FailsIn.readExact (by simp)))
  | @unknown m b h =>
    have := parse_byte_fails (R := R) h n hn
    intro r ha hx
    exact this r b ha
  | fbNumber h => exact sub (by simp) (fb (f := parseFB) (FailsIn.bind1 (FailsIn.mapErr (u32_faults.fails h))))
  | fcNumber h => exact sub (by simp) (fc (FailsIn.bind1 (FailsIn.mapErr (u32_faults.fails h))))
  | fdNumber h => exact sub (by simp) (fd (FailsIn.bind1 (FailsIn.mapErr (u32_faults.fails h))))
  | fbUnknown h1 h2 =>
    exact sub (by simp) (fb (f := parseFB) (FailsIn.bind2 (Runs.mapErr (decodeU32_runs h1)) (by
      rw [parseFB_unassigned h2]; exact FailsIn.err)))
  | fcUnknown h1 h2 =>
    exact sub (by simp) (fc (FailsIn.bind2 (Runs.mapErr (decodeU32_runs h1)) (by
      rw [parseFC_unassigned h2]; exact FailsIn.err)))
  | fdUnknown h1 h2 =>
    exact sub (by simp) (fd (FailsIn.bind2 (Runs.mapErr (decodeU32_runs h1)) (by
      rw [parseFD_unassigned h2]; exact FailsIn.err)))
  | imm ho h =>
    have key : ∀ {b : Bytes} {k : Nat}, BU 32 b k → ∃ m : UInt32, k = m.toNat := fun hb =>
      ⟨UInt32.ofNat _, by rw [UInt32.toNat_ofNat', Nat.mod_eq_of_lt (BU.lt hb)]⟩
    cases ho with
    | byte => exact parse_simple_failsIn (FImm.byte_ne h) (parseSimple_byte_failsIn h) n hn
    | fb hb =>
      obtain ⟨m, rfl⟩ := key hb
      exact sub (by simp) (fb (f := parseFB) (FailsIn.bind2 (Runs.mapErr (decodeU32_runs hb)) (parseFB_failsIn h)))
    | fc hb =>
      obtain ⟨m, rfl⟩ := key hb
      exact sub (by simp) (fc (FailsIn.bind2 (Runs.mapErr (decodeU32_runs hb)) (parseFC_failsIn h)))
    | fd hb =>
      obtain ⟨m, rfl⟩ := key hb
      exact sub (by simp) (fd (FailsIn.bind2 (Runs.mapErr (decodeU32_runs hb)) (parseFD_failsIn h)))
  | @blockType b e m hm h =>
    match n, hn with
    | n + 1, _ =>
      simp only [List.mem_cons, List.not_mem_nil, or_false] at hm
      refine FailsIn.bind2 (b1 := [m]) (b2 := b) (Runs.mapErr (Runs.readExact rfl)) ?_
      rcases hm with rfl | rfl | rfl | rfl
      · exact FailsIn.ite_neg (by decide) (FailsIn.ite_neg (by decide) (FailsIn.ite_pos (by decide)
          (FailsIn.bind1 (ffail BlockType.faults))))
      · exact FailsIn.ite_neg (by decide) (FailsIn.ite_neg (by decide) (FailsIn.ite_pos (by decide)
          (FailsIn.bind1 (ffail BlockType.faults))))
      · exact FailsIn.ite_neg (by decide) (FailsIn.ite_neg (by decide) (FailsIn.ite_pos (by decide)
          (FailsIn.bind1 (ffail BlockType.faults))))
      · exact FailsIn.ite_neg (by decide) (FailsIn.ite_neg (by decide) (FailsIn.ite_neg (by decide)
          (FailsIn.ite_pos (by decide) (FailsIn.bind1 (ffail BlockType.faults)))))
  | @catches b w c e h1 h2 =>
    match n, hn with
    | n + 1, _ =>
      refine FailsIn.bind2 (b1 := [0x1F]) (b2 := b ++ c) (Runs.mapErr (Runs.readExact rfl)) ?_
      exact FailsIn.ite_neg (by decide) (FailsIn.ite_neg (by decide) (FailsIn.ite_neg (by decide)
          (FailsIn.ite_pos (by decide) (FailsIn.bind2 (Runs.mapErr (BlockType.runs h1))
            (FailsIn.bind1 (ffail catches_faults))))))

theorem parse_else_runs {n : Nat} (hn : 0 < n) : Runs (R := R) (parse n) [0x05] .Else := by
  match n, hn with
  | n + 1, _ => exact parse_else n

theorem expr_faults : Faults (decodeExpr : Dec R _ _) FExpr := by
  refine Faults.mk ?_ ?_
  · intro r e r' h
    rcases exprLoop_errs (parse_sound _) (parse_errs _) _ _ _ r e r' h with
      ⟨e', q, l, t, rfl, h1, h2, h3 | ⟨c1, o, t', h3, rfl, c', p, t2, h4, rfl, h5⟩⟩ | ⟨q, l, b, h1, h2, rfl⟩
    · rw [h2]; exact .op (.here h1) h3
    · have hw : Within .expr c' (q ++ (o ++ p)) := .enter h1 h3 h4
      rw [h2, ← List.append_assoc o, ← List.append_assoc q]
      rcases h5 with h5 | ⟨h5, ⟨b, rfl⟩, rfl⟩
      · exact .op hw h5
      · exact .else hw h5 (within_ne_expr h4 (by cases h3 <;> simp))
    · rw [h2]; exact .topElse h1
  · intro x bs e h
    cases h with
    | op h1 h2 => exact expr_failsIn_of_parse h1 fun n hn => FOp.failsIn h2 n hn
    | @«else» p b c h1 h2 h3 =>
      intro r ha hx
      have hw := avail_le r
      have hlen := congrArg List.length ha
      simp only [List.length_append, List.length_cons] at hlen
      refine exprLoop_within_failsIn h1 h3 (tail := 0x05 :: b) ?_ _ _ [] false (by omega) (by omega) r ha hx
      intro n m acc hn hm
      match m, hm with
      | m + 1, _ =>
        refine FailsIn.bind2 (b1 := [0x05]) (b2 := b) (parse_else_runs hn) ?_
        exact FailsIn.ite_neg (by simpa using h2) FailsIn.err
    | @topElse p b l h1 =>
      intro r ha hx
      have hw := avail_le r
      have hlen := congrArg List.length ha
      simp only [List.length_append, List.length_cons] at hlen
      refine exprLoop_failsIn (parse_runs _) (tail := 0x05 :: b) ?_ l p _ [] false h1 (by omega) (by omega) r ha hx
      intro m acc d hm
      match m, hm with
      | m + 1, _ =>
        refine FailsIn.bind2 (b1 := [0x05]) (b2 := b) (Runs.mapErr (parse_else_runs (by omega))) ?_
        exact FailsIn.err

end Wadec
