import Verif.Proof.Context

/-! Input that ends inside nested constructs. -/

namespace Wadec

open LawfulRead Spec

variable {R : Type} [LawfulRead R]

theorem Ends.ite_pos {ε α : Type} {c : Prop} [Decidable c] {a b : Dec R ε α} {bs : List UInt8}
    {e : IoError → ε} (h : c) (hd : Ends a bs e) : Ends (if c then a else b) bs e := by
  rw [if_pos h]; exact hd

theorem Ends.ite_neg {ε α : Type} {c : Prop} [Decidable c] {a b : Dec R ε α} {bs : List UInt8}
    {e : IoError → ε} (h : ¬c) (hd : Ends b bs e) : Ends (if c then a else b) bs e := by
  rw [if_neg h]; exact hd

theorem parseSeq_ends {p : Dec R ParseError ParseResult} {N : Nat} {ae : Bool} {tail : Bytes}
    {e : IoError → ParseError} (hp : ∀ bs i, BInstr bs i → bs.length ≤ N → Runs p bs (.Instruction i))
    (ht : ∀ m acc, 0 < m → Ends (parseSeq p m ae acc) tail e) :
    ∀ (is : List Instr) (bs : Bytes) (m : Nat) (acc : List Instr), BInstrs bs is → bs.length ≤ N →
      bs.length < m → Ends (parseSeq p m ae acc) (bs ++ tail) e := by
  intro is
  induction is with
  | nil =>
    intro bs m acc h hN hm
    cases h
    exact ht m acc (by simpa using hm)
  | cons i is ih =>
    intro bs m acc h hN hm
    cases h with
    | @cons b bs _ _ h1 h2 =>
      have := BInstr.length_pos h1
      simp only [List.length_append] at hN hm
      match m, hm with
      | m + 1, hm =>
        rw [List.append_assoc]
        exact Ends.bind2 (hp _ _ h1 (by omega)) (ih bs m (acc ++ [i]) h2 (by omega) (by omega))

theorem exprLoop_ends {p : Dec R ParseError ParseResult} {N : Nat} {tail : Bytes}
    {e : IoError → ParseExpressionError}
    (hp : ∀ bs i, BInstr bs i → bs.length ≤ N → Runs p bs (.Instruction i))
    (ht : ∀ m acc d, 0 < m → Ends (decodeExprLoop p m acc d) tail e) :
    ∀ (is : List Instr) (bs : Bytes) (m : Nat) (acc : List Instr) (d : Bool), BInstrs bs is →
      bs.length ≤ N → bs.length < m → Ends (decodeExprLoop p m acc d) (bs ++ tail) e := by
  intro is
  induction is with
  | nil =>
    intro bs m acc d h hN hm
    cases h
    exact ht m acc d (by simpa using hm)
  | cons i is ih =>
    intro bs m acc d h hN hm
    cases h with
    | @cons b bs _ _ h1 h2 =>
      have := BInstr.length_pos h1
      simp only [List.length_append] at hN hm
      match m, hm with
      | m + 1, hm =>
        rw [List.append_assoc]
        exact Ends.bind2 (Runs.mapErr (hp _ _ h1 (by omega)))
          (ih bs m (acc ++ [i]) _ h2 (by omega) (by omega))

/-- A failure directly inside a construct is a failure of the construct. -/
theorem parse_opener_ends {c : Ctx} {o tail : Bytes} {e : IoError → ParseError} {n : Nat} (h : Opener c o)
    (hl : o.length ≤ n) (ht : Ends (R := R) (parseSeq (parse n) n (c == .then) []) tail e) :
    Ends (R := R) (parse (n + 1)) (o ++ tail) e := by
  cases h with
  | @block b bt h1 =>
    refine Ends.bind2 (b1 := [0x02]) (b2 := b ++ tail) (Runs.mapErr (Runs.readExact (R := R) rfl)) ?_
    refine Ends.ite_neg (by decide) (Ends.ite_neg (by decide) (Ends.ite_pos (by decide) ?_))
    exact Ends.bind2 (Runs.mapErr (BlockType.runs h1)) (Ends.bind1 ht)
  | @loop b bt h1 =>
    refine Ends.bind2 (b1 := [0x03]) (b2 := b ++ tail) (Runs.mapErr (Runs.readExact (R := R) rfl)) ?_
    refine Ends.ite_neg (by decide) (Ends.ite_neg (by decide) (Ends.ite_pos (by decide) ?_))
    exact Ends.bind2 (Runs.mapErr (BlockType.runs h1)) (Ends.bind1 ht)
  | @«then» b bt h1 =>
    refine Ends.bind2 (b1 := [0x04]) (b2 := b ++ tail) (Runs.mapErr (Runs.readExact (R := R) rfl)) ?_
    refine Ends.ite_neg (by decide) (Ends.ite_neg (by decide) (Ends.ite_pos (by decide) ?_))
    exact Ends.bind2 (Runs.mapErr (BlockType.runs h1)) (Ends.bind1 ht)
  | @«else» b b2 bt is h1 h2 =>
    simp only [List.length_cons, List.length_append, List.length_nil] at hl
    have e1 : (0x04 :: (b ++ (b2 ++ [0x05]))) ++ tail = [0x04] ++ (b ++ ((b2 ++ [0x05]) ++ tail)) := by
      simp
    rw [e1]
    refine Ends.bind2 (Runs.mapErr (Runs.readExact (R := R) rfl)) ?_
    refine Ends.ite_neg (by decide) (Ends.ite_neg (by decide) (Ends.ite_pos (by decide) ?_))
    refine Ends.bind2 (Runs.mapErr (BlockType.runs h1)) ?_
    have hr : Runs (R := R) (parseSeq (parse n) n (0x04 == (0x04 : UInt8)) []) (b2 ++ [0x05])
        (is, .Else) := by
      match n, hl with
      | n + 1, hl =>
        exact parseSeq_runs (parse_runs _) (parse_else n) (.inr ⟨rfl, rfl⟩) is b2 _ [] h2 (by omega)
          (by omega)
    refine Ends.bind2 hr ?_
    refine Ends.ite_neg (by decide) (Ends.ite_neg (by decide) (Ends.ite_pos rfl ?_))
    exact Ends.bind1 ht
  | @«try» b b2 bt cs h1 h2 =>
    have e1 : (0x1F :: (b ++ b2)) ++ tail = [0x1F] ++ (b ++ (b2 ++ tail)) := by simp
    rw [e1]
    refine Ends.bind2 (Runs.mapErr (Runs.readExact (R := R) rfl)) ?_
    refine Ends.ite_neg (by decide) (Ends.ite_neg (by decide) (Ends.ite_neg (by decide)
      (Ends.ite_pos rfl ?_)))
    refine Ends.bind2 (Runs.mapErr (BlockType.runs h1)) ?_
    refine Ends.bind2 (Runs.mapErr (list_runs (fun _ _ => Catch.runs) h2)) ?_
    exact Ends.bind1 ht

theorem within_ends {c0 c : Ctx} {bs tail : Bytes} {e : IoError → ParseError} (h : Within c0 c bs)
    (ht : ∀ n m acc, 0 < n → 0 < m →
      Ends (R := R) (parseSeq (parse n) m (c == .then) acc) tail e) :
    ∀ n m acc, bs.length < n → bs.length < m →
      Ends (R := R) (parseSeq (parse n) m (c0 == .then) acc) (bs ++ tail) e := by
  induction h with
  | @here c bs is h =>
    intro n m acc hn hm
    exact parseSeq_ends (parse_runs n) (fun m acc hm => ht n m acc (by omega) hm) is bs m acc h
      (by omega) hm
  | @enter c0 c1 c pre o bs is h1 h2 _ ih =>
    intro n m acc hn hm
    simp only [List.length_append] at hn hm
    rw [List.append_assoc, List.append_assoc]
    refine parseSeq_ends (parse_runs n) ?_ is pre m acc h1 (by omega) (by omega)
    intro m' acc' hm'
    match m', hm', n, hn with
    | m' + 1, _, n + 1, hn =>
      have ho : 0 < o.length := by cases h2 <;> simp
      exact Ends.bind1 (parse_opener_ends h2 (by omega) (ih ht n n [] (by omega) (by omega)))

theorem exprLoop_within_ends {c : Ctx} {bs tail : Bytes} {e : IoError → ParseError} (h : Within .expr c bs)
    (hc : c ≠ .expr) (ht : ∀ n m acc, 0 < n → 0 < m →
      Ends (R := R) (parseSeq (parse n) m (c == .then) acc) tail e) :
    ∀ n m acc d, bs.length < n → bs.length < m →
      Ends (R := R) (decodeExprLoop (parse n) m acc d) (bs ++ tail) (fun x => .ParseInstruction (e x)) := by
  generalize hc0 : Ctx.expr = c0 at h hc
  cases h with
  | here h => exact absurd rfl (hc0 ▸ hc)
  | @enter _ c1 _ pre o bs is h1 h2 h3 =>
    intro n m acc d hn hm
    simp only [List.length_append] at hn hm
    rw [List.append_assoc, List.append_assoc]
    refine exprLoop_ends (parse_runs n) ?_ is pre m acc d h1 (by omega) (by omega)
    intro m' acc' d' hm'
    match m', hm', n, hn with
    | m' + 1, _, n + 1, hn =>
      have ho : 0 < o.length := by cases h2 <;> simp
      exact Ends.bind1 (Ends.mapErr (parse_opener_ends h2 (by omega)
        (within_ends h3 ht n n [] (by omega) (by omega))))

/-- If parsing one instruction fails on `tail`, so does an expression that gets there. -/
theorem expr_ends_of_parse {c : Ctx} {bs tail : Bytes} {e : IoError → ParseError} (h : Within .expr c bs)
    (ht : ∀ n, 0 < n → Ends (R := R) (parse n) tail e) :
    Ends (R := R) decodeExpr (bs ++ tail) (fun x => .ParseInstruction (e x)) := by
  intro r ha
  have hw := avail_le r
  have hlen := congrArg List.length ha
  simp only [List.length_append] at hlen
  have main : Ends (R := R) (decodeExprLoop (parse (Read.weight r + 1)) (Read.weight r + 1) [] false)
      (bs ++ tail) (fun x => .ParseInstruction (e x)) := by
    by_cases hc : c = .expr
    · subst hc
      generalize hc0 : Ctx.expr = c0 at h
      have h' := h
      cases h with
      | @here _ bs is h1 =>
        refine exprLoop_ends (parse_runs _) ?_ is bs _ [] _ h1 (by omega) (by omega)
        intro m acc d hm
        match m, hm with
        | m + 1, _ => exact Ends.bind1 (Ends.mapErr (ht _ (by omega)))
      | @enter _ c1 _ pre o bs is h1 h2 h3 =>
        exfalso
        subst hc0
        have : ∀ {a b : Ctx} {x : Bytes}, Within a b x → a ≠ .expr → b ≠ .expr := by
          intro a b x hx
          induction hx with
          | here _ => exact id
          | enter _ h2 _ ih => intro _; exact ih (by cases h2 <;> simp)
        exact this h3 (by cases h2 <;> simp) rfl
    · refine exprLoop_within_ends h hc ?_ _ _ [] false (by omega) (by omega)
      intro n m acc hn hm
      match m, hm with
      | m + 1, _ => exact Ends.bind1 (ht n hn)
  exact main r ha


theorem parse_ends (n : Nat) (hn : 0 < n) : Ends (R := R) (parse n) [] .ReadOpcode := by
  match n, hn with
  | n + 1, _ => exact Ends.bind1 (Ends.mapErr (Ends.readExact (by decide)))

end Wadec
