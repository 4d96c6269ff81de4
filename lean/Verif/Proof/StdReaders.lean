import Verif.Model.StdReaders
import Verif.Proof.OwnExact

/-! The readers of std are lawful, and their `read_exact` keeps its contract (C82). -/

namespace Wadec

open LawfulRead

namespace BufReader

variable {R : Type} [LawfulRead R]

instance : LawfulRead (BufReader R) where
  avail s := s.buf ++ avail s.inner
  fin s := fin s.inner
  Adv bs s s' := ∃ x, Adv x s.inner s'.inner ∧ s.buf ++ x = bs ++ s'.buf
  adv_nil s := ⟨[], adv_nil _, by simp⟩
  adv_trans := by
    rintro bs bs' s s' s'' ⟨x, h1, h2⟩ ⟨y, h3, h4⟩
    exact ⟨x ++ y, adv_trans h1 h3, by rw [← List.append_assoc, h2, List.append_assoc, h4, List.append_assoc]⟩
  adv_avail := by
    rintro bs s s' ⟨x, h1, h2⟩
    rw [adv_avail h1, ← List.append_assoc, h2, List.append_assoc]
  adv_fin := by
    rintro bs s s' ⟨x, h1, _⟩
    exact adv_fin h1
  fin_ne s := fin_ne s.inner
  avail_le s := by
    have := avail_le s.inner
    have : Read.weight s.inner ≤ (s.cap + 1) * Read.weight s.inner := Nat.le_mul_of_pos_left _ (by omega)
    show (s.buf ++ avail s.inner).length ≤ s.buf.length + (s.cap + 1) * Read.weight s.inner
    rw [List.length_append]
    omega
  adv_reserve n s := ⟨[], adv_reserve n s.inner, by simp [Read.reserve]⟩
  read_data := by
    rintro n ⟨cap, buf, inner⟩ b bs s' hn h
    simp only [Read.read, read] at h
    cases buf with
    | nil =>
      simp only at h
      split at h
      · generalize ho : Read.read n inner = o at h
        obtain ⟨res, r'⟩ := o
        cases h
        obtain ⟨h1, h2, h3⟩ := read_data hn ho
        refine ⟨h1, ⟨_, h2, by simp⟩, ?_⟩
        simp only [Read.weight, List.length_nil, Nat.zero_add]
        exact Nat.mul_lt_mul_of_pos_left h3 (by omega)
      · generalize ho : Read.read cap inner = o at h
        obtain ⟨res, r'⟩ := o
        cases res with
        | error e => cases h
        | ok l =>
          simp only [Prod.mk.injEq, Except.ok.injEq] at h
          obtain ⟨h0, rfl⟩ := h
          cases l with
          | nil => simp at h0
          | cons c l =>
            obtain ⟨h1, h2, h3⟩ := read_data (by omega) ho
            refine ⟨by rw [← h0, List.length_take]; omega, ⟨_, h2, ?_⟩, ?_⟩
            · rw [← h0, List.take_append_drop]; rfl
            · have : (cap + 1) * (Read.weight r' + 1) ≤ (cap + 1) * Read.weight inner := Nat.mul_le_mul_left _ h3
              simp only [Read.weight, List.length_nil, Nat.zero_add, List.length_drop] at this ⊢
              rw [Nat.mul_add] at this
              omega
    | cons c l =>
      simp only [Prod.mk.injEq, Except.ok.injEq] at h
      obtain ⟨h0, rfl⟩ := h
      refine ⟨by rw [← h0, List.length_take]; omega, ⟨[], adv_nil _, ?_⟩, ?_⟩
      · rw [← h0, List.take_append_drop, List.append_nil]
      · simp only [Read.weight, List.length_drop, List.length_cons]
        omega
  read_eof := by
    rintro n ⟨cap, buf, inner⟩ s' hn h
    simp only [Read.read, read] at h
    cases buf with
    | nil =>
      simp only at h
      split at h
      · generalize ho : Read.read n inner = o at h
        obtain ⟨res, r'⟩ := o
        cases h
        exact read_eof hn ho
      · generalize ho : Read.read cap inner = o at h
        obtain ⟨res, r'⟩ := o
        cases res with
        | error e => cases h
        | ok l =>
          simp only [Prod.mk.injEq, Except.ok.injEq] at h
          obtain ⟨h0, rfl⟩ := h
          cases l with
          | nil => exact read_eof (by omega) ho
          | cons c l =>
            have := congrArg List.length h0
            simp only [List.length_take, List.length_cons, List.length_nil] at this
            omega
    | cons c l =>
      simp only [Prod.mk.injEq, Except.ok.injEq] at h
      have := congrArg List.length h.1
      simp only [List.length_take, List.length_cons, List.length_nil] at this
      omega
  read_int := by
    rintro n ⟨cap, buf, inner⟩ s' hn h
    simp only [Read.read, read] at h
    have key : ∀ r', Adv [] inner r' → Read.weight r' < Read.weight inner →
        (∃ x, Adv x inner r' ∧ [] ++ x = ([] : List UInt8) ++ []) ∧
        (cap + 1) * Read.weight r' < (cap + 1) * Read.weight inner :=
      fun r' h1 h2 => ⟨⟨[], h1, rfl⟩, Nat.mul_lt_mul_of_pos_left h2 (by omega)⟩
    cases buf with
    | nil =>
      simp only at h
      split at h
      · generalize ho : Read.read n inner = o at h
        obtain ⟨res, r'⟩ := o
        cases h
        obtain ⟨h1, h2⟩ := read_int hn ho
        refine ⟨(key _ h1 h2).1, ?_⟩
        simpa only [Read.weight, List.length_nil, Nat.zero_add] using (key _ h1 h2).2
      · generalize ho : Read.read cap inner = o at h
        obtain ⟨res, r'⟩ := o
        cases res with
        | ok l => cases h
        | error e =>
          cases h
          obtain ⟨h1, h2⟩ := read_int (by omega) ho
          refine ⟨(key _ h1 h2).1, ?_⟩
          simpa only [Read.weight, List.length_nil, Nat.zero_add] using (key _ h1 h2).2
    | cons c l => cases h
  read_err := by
    rintro n ⟨cap, buf, inner⟩ e s' hn he h
    simp only [Read.read, read] at h
    cases buf with
    | nil =>
      simp only at h
      split at h
      · generalize ho : Read.read n inner = o at h
        obtain ⟨res, r'⟩ := o
        cases h
        exact read_err hn he ho
      · generalize ho : Read.read cap inner = o at h
        obtain ⟨res, r'⟩ := o
        cases res with
        | ok l => cases h
        | error e =>
          cases h
          exact read_err (by omega) he ho
    | cons c l => cases h

theorem fills : Fills (R := BufReader R) exact where
  ok := by
    rintro n ⟨cap, buf, inner⟩ bs rest hn ha hl
    simp only [exact]
    split
    · next h =>
      have ha : buf ++ avail inner = bs ++ rest := ha
      have h1 : buf.take n = bs := by
        have := congrArg (List.take n) ha
        rwa [List.take_append_of_le_length h, ← hl, List.take_left, hl] at this
      have h2 : buf.drop n ++ avail inner = rest := by
        have := congrArg (List.drop n) ha
        rwa [List.drop_append_of_le_length h, ← hl, List.drop_left, hl] at this
      exact ⟨⟨cap, buf.drop n, inner⟩, by rw [h1], h2, rfl⟩
    · exact default_fills.ok hn ha hl
  err := by
    rintro n ⟨cap, buf, inner⟩ h
    simp only [exact]
    have h1 : (buf ++ avail inner).length < n := h
    rw [List.length_append] at h1
    rw [if_neg (by omega)]
    exact default_fills.err h

end BufReader

namespace VecDeque

theorem drain_content (n : Nat) (s : VecDeque) : (s.drain n).front ++ (s.drain n).back = (s.front ++ s.back).drop n := by
  unfold drain
  split
  · rw [List.drop_append_of_le_length (by omega)]
  · next h => simp only [List.append_nil, List.drop_append, List.drop_eq_nil_of_le (as := s.front) (i := n) (by omega), List.nil_append]

theorem drain_weight (n : Nat) (s : VecDeque) : Read.weight (s.drain n) = Read.weight s - n := by
  have := congrArg List.length (drain_content n s)
  simp only [List.length_append, List.length_drop] at this
  exact this

instance : LawfulRead VecDeque where
  avail s := s.front ++ s.back
  fin _ := .eof
  Adv bs s s' := s.front ++ s.back = bs ++ (s'.front ++ s'.back)
  adv_nil _ := rfl
  adv_trans h1 h2 := by rw [h1, h2, List.append_assoc]
  adv_avail h := h
  adv_fin _ := rfl
  fin_ne _ := by simp
  avail_le s := by rw [List.length_append]; exact Nat.le_refl _
  adv_reserve _ _ := rfl
  read_data := by
    intro n s b bs s' hn h
    simp only [Read.read, Prod.mk.injEq, Except.ok.injEq] at h
    obtain ⟨h1, rfl⟩ := h
    have hl := congrArg List.length h1
    simp only [List.length_take, List.length_cons] at hl
    refine ⟨by rw [← h1, List.length_take]; omega, ?_, ?_⟩
    · rw [drain_content, List.length_take, ← h1, List.drop_append_of_le_length (by omega), ← List.append_assoc]
      congr 1
      rcases Nat.le_total n s.front.length with h | h
      · rw [Nat.min_eq_left h, List.take_append_drop]
      · rw [Nat.min_eq_right h, List.take_of_length_le h, List.drop_length, List.append_nil]
    · rw [drain_weight, List.length_take]
      simp only [Read.weight]
      omega
  read_eof := by
    intro n s s' hn h
    simp only [Read.read, Prod.mk.injEq, Except.ok.injEq] at h
    have hl := congrArg List.length h.1
    simp only [List.length_take, List.length_nil] at hl
    have : s.front = [] := List.length_eq_zero_iff.1 (by omega)
    exact ⟨by rw [this, s.tidy this]; rfl, rfl⟩
  read_int := by
    rintro n r r' hn h
    cases h
  read_err := by
    rintro n r e r' hn _ h
    cases h

theorem fills : Fills VecDeque.exact where
  ok := by
    intro n s bs rest hn ha hl
    have ha : s.front ++ s.back = bs ++ rest := ha
    have hd : ∀ n, n = bs.length → (s.drain n).front ++ (s.drain n).back = rest := by
      intro n hn
      rw [drain_content, ha, hn, List.drop_left]
    have ht : (s.front ++ s.back).take n = bs := by rw [ha, ← hl, List.take_left]
    refine ⟨s.drain n, ?_, hd n hl.symm, rfl⟩
    simp only [exact]
    split
    · next h => rw [List.take_append_of_le_length (by omega)] at ht; rw [ht]
    · next h =>
      have := congrArg List.length ha
      simp only [List.length_append] at this
      rw [if_pos (by omega)]
      rw [List.take_append, List.take_of_length_le (by omega)] at ht
      rw [ht]
  err := by
    intro n s h
    have h : (s.front ++ s.back).length < n := h
    rw [List.length_append] at h
    exact ⟨_, by simp only [exact, if_neg (show ¬ n < s.front.length by omega), if_neg (show ¬ n - s.front.length ≤ s.back.length by omega)]; rfl⟩

end VecDeque

namespace ByteCursor

theorem left_advance (s : ByteCursor) (k : Nat) (h : k ≤ s.left.length) :
    ({ s with pos := s.pos + k } : ByteCursor).left = s.left.drop k := by
  simp only [left, List.drop_drop, List.length_drop] at *
  rcases Nat.le_total s.pos s.bytes.length with h1 | h1
  · congr 1
    omega
  · have : k = 0 := by omega
    subst this
    rfl

instance : LawfulRead ByteCursor where
  avail s := s.left
  fin _ := .eof
  Adv bs s s' := s.left = bs ++ s'.left
  adv_nil _ := rfl
  adv_trans h1 h2 := by rw [h1, h2, List.append_assoc]
  adv_avail h := h
  adv_fin _ := rfl
  fin_ne _ := by simp
  avail_le s := Nat.le_refl _
  adv_reserve _ _ := rfl
  read_data := by
    intro n s b bs s' hn h
    simp only [Read.read, Prod.mk.injEq, Except.ok.injEq] at h
    obtain ⟨h1, rfl⟩ := h
    have hl := congrArg List.length h1
    simp only [List.length_take, List.length_cons] at hl
    have hk := left_advance s (s.left.take n).length (by rw [List.length_take]; omega)
    refine ⟨by rw [← h1, List.length_take]; omega, ?_, ?_⟩
    · rw [hk, ← h1, List.length_take]
      rcases Nat.le_total n s.left.length with h | h
      · rw [Nat.min_eq_left h, List.take_append_drop]
      · rw [Nat.min_eq_right h, List.take_of_length_le h, List.drop_length, List.append_nil]
    · simp only [Read.weight]
      rw [hk, List.length_drop, List.length_take]
      omega
  read_eof := by
    intro n s s' hn h
    simp only [Read.read, Prod.mk.injEq, Except.ok.injEq] at h
    have hl := congrArg List.length h.1
    simp only [List.length_take, List.length_nil] at hl
    exact ⟨List.length_eq_zero_iff.1 (by omega), rfl⟩
  read_int := by
    rintro n r r' hn h
    cases h
  read_err := by
    rintro n r e r' hn _ h
    cases h

theorem fills (toEnd : Bool) : Fills (ByteCursor.exact toEnd) where
  ok := by
    intro n s bs rest hn ha hl
    have ha : s.left = bs ++ rest := ha
    have hlen := congrArg List.length ha
    rw [List.length_append] at hlen
    refine ⟨{ s with pos := s.pos + n }, ?_, ?_, rfl⟩
    · simp only [exact]
      rw [if_neg (by omega), ha, ← hl, List.take_left]
    · show ({ s with pos := s.pos + n } : ByteCursor).left = rest
      rw [left_advance s n (by omega), ha, ← hl, List.drop_left]
  err := by
    intro n s h
    have h : s.left.length < n := h
    exact ⟨_, by simp only [exact, if_pos h]; rfl⟩

end ByteCursor

end Wadec
