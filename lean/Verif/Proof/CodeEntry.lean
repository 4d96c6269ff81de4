import Verif.Proof.Sections
import Verif.Proof.Unambig

/-! Failing lists and failing code entries. -/

namespace Wadec

open LawfulRead Spec

section
variable {R : Type} [LawfulRead R]
variable {ε α σ : Type}

theorem listLoop_fails {P : σ → List UInt8 → α → σ → Prop} {f : σ → Dec R ε (α × σ)}
    (hf : ∀ st b x st', P st b x st' → Runs (f st) b (x, st')) {st1 : σ} {b2 : List UInt8} {e : ε}
    (he : Fails (f st1) b2 e) :
    ∀ (xs : List α) (n : Nat) (i : UInt32) (st : σ) (items : List α) (bs : List UInt8),
      Steps P st bs xs st1 → xs.length < n →
      Fails (decodeListLoop f n i st items) (bs ++ b2) (.ParseElement (i + UInt32.ofNat xs.length) e) := by
  intro xs
  induction xs with
  | nil =>
    intro n i st items bs h hn
    cases h
    match n, hn with
    | n + 1, _ =>
      have : i + UInt32.ofNat ([] : List α).length = i := by simp
      rw [this]
      exact Fails.bind1 (Fails.mapErr he)
  | cons x xs ih =>
    intro n i st items bs h hn
    cases h with
    | cons h1 h2 =>
      simp only [List.length_cons] at hn
      match n, hn with
      | n + 1, hn =>
        rw [List.append_assoc]
        refine Fails.bind2 (Runs.mapErr (hf _ _ _ _ h1)) ?_
        have := ih n (i + 1) _ (items ++ [x]) _ h2 (by omega)
        have e : i + UInt32.ofNat (x :: xs).length = i + 1 + UInt32.ofNat xs.length := by
          apply UInt32.toNat_inj.1
          simp only [UInt32.toNat_add, UInt32.toNat_ofNat', List.length_cons, UInt32.reduceToNat]
          omega
        rw [e]
        exact this

theorem listS_fails {P : σ → List UInt8 → α → σ → Prop} {f : σ → Dec R ε (α × σ)}
    (hf : ∀ st b x st', P st b x st' → Runs (f st) b (x, st')) {st st1 : σ}
    {b0 b1 b2 : List UInt8} {n : UInt32} {xs : List α} {e : ε} (h0 : BU32 b0 n)
    (h1 : Steps P st b1 xs st1) (hn : xs.length < n.toNat) (he : Fails (f st1) b2 e) :
    Fails (decodeListS f st) (b0 ++ (b1 ++ b2)) (.ParseElement (UInt32.ofNat xs.length) e) := by
  refine Fails.bind2 (Runs.mapErr (decodeU32_runs h0)) ?_
  refine Fails.bind2 (b1 := []) Runs.reserve ?_
  have := listLoop_fails hf he xs n.toNat 0 st [] b1 h1 hn
  simpa using this

/-- The count of a run of locals that brings the total to 2^32 or more. -/
theorem codeLocal_fails {st : UInt64} {b : List UInt8} {c : UInt32} (hb : BU32 b c)
    (hst : st.toNat < 2 ^ 32) (hc : 2 ^ 32 ≤ st.toNat + c.toNat) {tot : UInt64}
    (ht : tot.toNat = st.toNat + c.toNat) :
    Fails (R := R) (parseCodeLocal st) b (.LocalsCountOutOfBound 4294967295 tot) := by
  have hlt := c.toNat_lt
  have e : st + c.toUInt64 = tot := by
    apply UInt64.toNat_inj.1
    rw [UInt64.toNat_add, UInt32.toNat_toUInt64, ht]; omega
  rw [← List.append_nil b]
  refine Fails.bind2 (Runs.mapErr (decodeU32_runs hb)) ?_
  refine Fails.ite_neg (by omega) ?_
  simp only [e]
  refine Fails.ite_pos ?_ Fails.err
  rw [UInt64.lt_iff_toNat_lt, ht]
  show 4294967295 < _
  omega

theorem seq_locals_unmap {bs : Bytes} {runs : List (UInt32 × ValType)} (h : BSeq BLocals bs runs) :
    ∃ ls : List Local, BSeq BLocal bs ls ∧ runs = ls.map (fun l => (l.count, l.t)) :=
  seq_unmap (fun l : Local => (l.count, l.t)) (fun _ y hb => ⟨⟨y.1, y.2⟩, hb, rfl⟩) h

theorem BFunc.toBody {bs : Bytes} {c : CodeEntry} (h : BFunc bs c) :
    ∃ ls, BBodyD bs (ls, c.body, anyContainsDataIdx c.body) ∧ c.locals = expandLocals ls := by
  cases h with
  | @mk b1 b2 runs e h1 h2 h3 =>
    cases h1 with
    | mk h4 h5 =>
      obtain ⟨ls, h6, rfl⟩ := seq_locals_unmap h5
      rw [← expandLocals_eq, length_expandLocals] at h3
      exact ⟨ls, BBodyD.mk (.mk (by simpa using h4) h6) h2 h3, (expandLocals_eq ls).symm⟩

theorem BBodyD.toFunc {bs : Bytes} {ls : List Local} {e : Expr} {d : Bool}
    (h : BBodyD bs (ls, e, d)) : BFunc bs ⟨expandLocals ls, e⟩ := by
  cases h with
  | mk h1 h2 h3 =>
    rw [expandLocals_eq]
    refine .mk (list_map (fun l : Local => (l.count, l.t)) (fun _ _ h => h) h1) h2 ?_
    rw [← expandLocals_eq, length_expandLocals]
    exact h3

end

end Wadec
