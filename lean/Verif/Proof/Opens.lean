import Verif.Spec.Opens
import Verif.Proof.Sticks
import Verif.Proof.Nesting
import Verif.Proof.Context

/-! C72: the inputs, valid or not, for which room for `d` calls is not enough. -/

namespace Wadec

open LawfulRead Spec

variable {R : Type} [LawfulRead R] {ε ε' α β : Type}

/-! ### These inputs need more -/

/-- Stuck directly inside a construct is stuck. -/
theorem opener_sticks {c : Ctx} {o tail : Bytes} {d n : Nat} (h : Opener c o) (hl : o.length ≤ n)
    (ht : ∀ ae, Sticks (R := R) (parseSeq (parseWithin d n) n ae []) tail) :
    Sticks (R := R) (parseWithin (d + 1) (n + 1)) (o ++ tail) := by
  rw [parseWithin]
  cases h with
  | @block b bt h1 =>
    refine Sticks.after (b1 := [0x02]) (b2 := b ++ tail) (Runs.mapErr (Runs.readExact (R := R) rfl)) ?_
    refine Sticks.ite_neg (by decide) (Sticks.ite_neg (by decide) (Sticks.ite_pos (by decide) ?_))
    exact Sticks.after (Runs.mapErr (BlockType.runs h1)) (Sticks.bind (ht _))
  | @loop b bt h1 =>
    refine Sticks.after (b1 := [0x03]) (b2 := b ++ tail) (Runs.mapErr (Runs.readExact (R := R) rfl)) ?_
    refine Sticks.ite_neg (by decide) (Sticks.ite_neg (by decide) (Sticks.ite_pos (by decide) ?_))
    exact Sticks.after (Runs.mapErr (BlockType.runs h1)) (Sticks.bind (ht _))
  | @«then» b bt h1 =>
    refine Sticks.after (b1 := [0x04]) (b2 := b ++ tail) (Runs.mapErr (Runs.readExact (R := R) rfl)) ?_
    refine Sticks.ite_neg (by decide) (Sticks.ite_neg (by decide) (Sticks.ite_pos (by decide) ?_))
    exact Sticks.after (Runs.mapErr (BlockType.runs h1)) (Sticks.bind (ht _))
  | @«else» b b2 bt is h1 h2 =>
    simp only [List.length_cons, List.length_append, List.length_nil] at hl
    have e1 : (0x04 :: (b ++ (b2 ++ [0x05]))) ++ tail = [0x04] ++ (b ++ ((b2 ++ [0x05]) ++ tail)) := by
      simp
    rw [e1]
    refine Sticks.after (Runs.mapErr (Runs.readExact (R := R) rfl)) ?_
    refine Sticks.ite_neg (by decide) (Sticks.ite_neg (by decide) (Sticks.ite_pos (by decide) ?_))
    refine Sticks.after (Runs.mapErr (BlockType.runs h1)) ?_
    have hr : Runs (R := R) (parseSeq (parse n) n (0x04 == (0x04 : UInt8)) []) (b2 ++ [0x05])
        (is, .Else) := by
      match n, hl with
      | n + 1, hl =>
        exact parseSeq_runs (parse_runs _) (parse_else n) (.inr ⟨rfl, rfl⟩) is b2 _ [] h2 (by omega)
          (by omega)
    refine Sticks.under ((parse_under n d).seq _ _ _) hr ?_
    refine Sticks.ite_neg (by decide) (Sticks.ite_neg (by decide) (Sticks.ite_pos rfl ?_))
    exact Sticks.bind (ht _)
  | @«try» b b2 bt cs h1 h2 =>
    have e1 : (0x1F :: (b ++ b2)) ++ tail = [0x1F] ++ (b ++ (b2 ++ tail)) := by simp
    rw [e1]
    refine Sticks.after (Runs.mapErr (Runs.readExact (R := R) rfl)) ?_
    refine Sticks.ite_neg (by decide) (Sticks.ite_neg (by decide) (Sticks.ite_neg (by decide)
      (Sticks.ite_pos rfl ?_)))
    refine Sticks.after (Runs.mapErr (BlockType.runs h1)) ?_
    refine Sticks.after (Runs.mapErr (list_runs (fun _ _ => Catch.runs) h2)) ?_
    exact Sticks.bind (ht _)

theorem seq_sticks {d n : Nat} {ae : Bool} {tail : Bytes}
    (ht : ∀ m acc, Sticks (R := R) (parseSeq (parseWithin d n) m ae acc) tail) :
    ∀ (is : List Instr) (bs : Bytes) (m : Nat) (acc : List Instr), BInstrs bs is → bs.length ≤ n →
      Sticks (R := R) (parseSeq (parseWithin d n) m ae acc) (bs ++ tail) := by
  intro is
  induction is with
  | nil =>
    intro bs m acc h _
    cases h
    exact ht m acc
  | cons i is ih =>
    intro bs m acc h hn
    cases h with
    | @cons b bs _ _ h1 h2 =>
      simp only [List.length_append] at hn
      cases m with
      | zero => exact Sticks.none
      | succ m =>
        rw [List.append_assoc, parseSeq]
        exact Sticks.under (parse_under n d) (parse_runs n b i h1 (by omega)) (ih bs m (acc ++ [i]) h2 (by omega))

theorem exprLoop_sticks {d n : Nat} {tail : Bytes}
    (ht : ∀ m acc b, Sticks (R := R) (decodeExprLoopWithin d (parseWithin d n) m acc b) tail) :
    ∀ (is : List Instr) (bs : Bytes) (m : Nat) (acc : List Instr) (c : Bool), BInstrs bs is → bs.length ≤ n →
      Sticks (R := R) (decodeExprLoopWithin d (parseWithin d n) m acc c) (bs ++ tail) := by
  intro is
  induction is with
  | nil =>
    intro bs m acc c h _
    cases h
    exact ht m acc c
  | cons i is ih =>
    intro bs m acc c h hn
    cases h with
    | @cons b bs _ _ h1 h2 =>
      simp only [List.length_append] at hn
      cases m with
      | zero => exact Sticks.none
      | succ m =>
        rw [List.append_assoc, decodeExprLoopWithin]
        refine Sticks.under (Under.mapErr (parse_under n d)) (Runs.mapErr (parse_runs n b i h1 (by omega))) ?_
        simp only
        cases containsDataIdxWithin d i with
        | none => exact Sticks.none
        | some c' => exact ih bs m _ _ h2 (by omega)

theorem parse_none {n : Nat} {bs : Bytes} : Sticks (R := R) (parseWithin 0 n) bs := by
  rw [parseWithin]
  exact Sticks.none

theorem opens_sticks {d : Nat} {bs : Bytes} (h : Opens d bs) : ∀ n m ae acc, bs.length < n →
    Sticks (R := R) (parseSeq (parseWithin d n) m ae acc) bs := by
  induction h with
  | here =>
    intro n m ae acc _
    cases m with
    | zero => exact Sticks.none
    | succ m => rw [parseSeq]; exact Sticks.bind parse_none
  | @enter d pre o bs is c h1 h2 _ ih =>
    intro n m ae acc hn
    simp only [List.length_append] at hn
    have ho : 0 < o.length := by cases h2 <;> simp
    refine seq_sticks (fun m acc => ?_) is pre m acc h1 (by omega)
    cases m with
    | zero => exact Sticks.none
    | succ m =>
      rw [parseSeq]
      match n, hn with
      | n + 1, hn => exact Sticks.bind (opener_sticks h2 (by omega) fun ae => ih n n ae [] (by omega))

theorem expr_opens {d : Nat} {bs : Bytes} (h : Opens d bs) : Sticks (R := R) (decodeExprWithin d) bs := by
  intro r rest ha
  simp only [decodeExprWithin]
  have hw : bs.length ≤ Read.weight r := by
    have := avail_le r
    rw [ha, List.length_append] at this
    omega
  generalize Read.weight r = w at hw
  have key : Sticks (R := R) (decodeExprLoopWithin d (parseWithin d (w + 1)) (w + 1) [] false) bs := by
    cases h with
    | here =>
      rw [decodeExprLoopWithin]
      exact Sticks.bind (Sticks.mapErr parse_none)
    | @enter d pre o bs is c h1 h2 h3 =>
      simp only [List.length_append] at hw
      have ho : 0 < o.length := by cases h2 <;> simp
      refine exprLoop_sticks (fun m acc b => ?_) is pre _ _ _ h1 (by omega)
      cases m with
      | zero => exact Sticks.none
      | succ m =>
        rw [decodeExprLoopWithin]
        exact Sticks.bind (Sticks.mapErr (opener_sticks h2 (by omega) fun ae => opens_sticks h3 w w ae [] (by omega)))
  exact key r rest ha

end Wadec
