import Verif.Proof.Fault

/-! C55: the error of a name that is not UTF-8. -/

namespace Wadec

open LawfulRead Spec

theorem utf8Check_ge : ∀ (off : Nat) (r : List UInt8) v y, utf8Check off r = some (v, y) → off ≤ v := by
  intro off r
  fun_induction utf8Check off r <;> intro v y h <;> first | (cases h; done) | (cases h; omega) | skip
  all_goals (rename_i ih; have := ih v y h; omega)

set_option maxRecDepth 100000 in
theorem second3_ext : ∀ b : UInt8, 0xE0 ≤ b ∧ b ≤ 0xEF →
    second3 b (if b = 0xED then 0x80 else 0xA0) = true := by
  intro b h
  rw [second3_iff]
  simp only [UInt8.le_iff_toNat_le] at h
  split
  · rename_i h1; subst h1; decide
  · rename_i h1
    rw [← UInt8.toNat_inj] at h1
    simp at h h1 ⊢; omega

theorem second4_ext : ∀ b : UInt8, 0xF0 ≤ b ∧ b ≤ 0xF4 →
    second4 b (if b = 0xF4 then 0x80 else 0x90) = true := by
  intro b h
  rw [second4_iff]
  simp only [UInt8.le_iff_toNat_le] at h
  split
  · rename_i h1; subst h1; decide
  · rename_i h1
    rw [← UInt8.toNat_inj] at h1
    simp at h h1 ⊢; omega

/-- Incomplete: some further bytes complete a character. -/
theorem utf8Check_incomplete {off : Nat} {q : Bytes} (h : utf8Check off q = some (off, none)) :
    ∃ ext, utf8Check off (q ++ ext) = none := by
  have nil : ∀ o, utf8Check o [] = none := fun o => by rw [utf8Check]
  have c80 : isCont 0x80 = true := rfl
  match q with
  | [] => rw [nil] at h; cases h
  | b :: rest =>
    rw [utf8Check_cons] at h
    by_cases h1 : b < 0x80
    · rw [if_pos h1] at h; have := utf8Check_ge _ _ _ _ h; omega
    rw [if_neg h1] at h
    by_cases h2 : 0xC2 ≤ b ∧ b ≤ 0xDF
    · rw [if_pos h2] at h
      match rest with
      | [] => exact ⟨[0x80], by simp only [List.cons_append, List.nil_append]
                                rw [utf8Check_cons, if_neg h1, if_pos h2]; simp [c80, nil]⟩
      | c1 :: rest =>
        simp only at h
        by_cases h3 : isCont c1 = true
        · rw [if_pos h3] at h; have := utf8Check_ge _ _ _ _ h; omega
        · rw [if_neg h3] at h; simp at h
    rw [if_neg h2] at h
    by_cases h3 : 0xE0 ≤ b ∧ b ≤ 0xEF
    · rw [if_pos h3] at h
      match rest with
      | [] =>
        refine ⟨[if b = 0xED then 0x80 else 0xA0, 0x80], ?_⟩
        simp only [List.cons_append, List.nil_append]
        rw [utf8Check_cons, if_neg h1, if_neg h2, if_pos h3]
        simp [second3_ext b h3, c80, nil]
      | c1 :: rest =>
        simp only at h
        by_cases h4 : second3 b c1 = true
        · rw [if_pos h4] at h
          match rest with
          | [] =>
            refine ⟨[0x80], ?_⟩
            simp only [List.cons_append, List.nil_append]
            rw [utf8Check_cons, if_neg h1, if_neg h2, if_pos h3]
            simp [h4, c80, nil]
          | c2 :: rest =>
            simp only at h
            by_cases h5 : isCont c2 = true
            · rw [if_pos h5] at h; have := utf8Check_ge _ _ _ _ h; omega
            · rw [if_neg h5] at h; simp at h
        · rw [if_neg h4] at h; simp at h
    rw [if_neg h3] at h
    by_cases h4 : 0xF0 ≤ b ∧ b ≤ 0xF4
    · rw [if_pos h4] at h
      match rest with
      | [] =>
        refine ⟨[if b = 0xF4 then 0x80 else 0x90, 0x80, 0x80], ?_⟩
        simp only [List.cons_append, List.nil_append]
        rw [utf8Check_cons, if_neg h1, if_neg h2, if_neg h3, if_pos h4]
        simp [second4_ext b h4, c80, nil]
      | c1 :: rest =>
        simp only at h
        by_cases h5 : second4 b c1 = true
        · rw [if_pos h5] at h
          match rest with
          | [] =>
            refine ⟨[0x80, 0x80], ?_⟩
            simp only [List.cons_append, List.nil_append]
            rw [utf8Check_cons, if_neg h1, if_neg h2, if_neg h3, if_pos h4]
            simp [h5, c80, nil]
          | c2 :: rest =>
            simp only at h
            by_cases h6 : isCont c2 = true
            · rw [if_pos h6] at h
              match rest with
              | [] =>
                refine ⟨[0x80], ?_⟩
                simp only [List.cons_append, List.nil_append]
                rw [utf8Check_cons, if_neg h1, if_neg h2, if_neg h3, if_pos h4]
                simp [h5, h6, c80, nil]
              | c3 :: rest =>
                simp only at h
                by_cases h7 : isCont c3 = true
                · rw [if_pos h7] at h; have := utf8Check_ge _ _ _ _ h; omega
                · rw [if_neg h7] at h; simp at h
            · rw [if_neg h6] at h; simp at h
        · rw [if_neg h5] at h; simp at h
    · rw [if_neg h4] at h; simp at h

/-- Invalid: one more byte than the reported ones settles it; the reported ones, if more than one,
are the start of a character. -/
theorem utf8Check_invalid {off n : Nat} {q : Bytes} (h : utf8Check off q = some (off, some n)) :
    1 ≤ n ∧ n ≤ q.length ∧ (n = 1 ∨ utf8Check off (q.take n) = some (off, none)) ∧
    ∀ ext, utf8Check off (q.take (n + 1) ++ ext) = some (off, some n) := by
  have nil : ∀ o, utf8Check o [] = none := fun o => by rw [utf8Check]
  match q with
  | [] => rw [nil] at h; cases h
  | b :: rest =>
    rw [utf8Check_cons] at h
    by_cases h1 : b < 0x80
    · rw [if_pos h1] at h; have := utf8Check_ge _ _ _ _ h; omega
    rw [if_neg h1] at h
    by_cases h2 : 0xC2 ≤ b ∧ b ≤ 0xDF
    · rw [if_pos h2] at h
      match rest with
      | [] => simp at h
      | c1 :: rest =>
        simp only at h
        by_cases h3 : isCont c1 = true
        · rw [if_pos h3] at h; have := utf8Check_ge _ _ _ _ h; omega
        · rw [if_neg h3] at h; simp at h; subst h
          refine ⟨by simp, by simp, .inl rfl, fun ext => ?_⟩
          simp only [List.take_succ_cons, List.take_zero, List.cons_append, List.nil_append]
          rw [utf8Check_cons, if_neg h1, if_pos h2]; simp [h3]
    rw [if_neg h2] at h
    by_cases h3 : 0xE0 ≤ b ∧ b ≤ 0xEF
    · rw [if_pos h3] at h
      match rest with
      | [] => simp at h
      | c1 :: rest =>
        simp only at h
        by_cases h4 : second3 b c1 = true
        · rw [if_pos h4] at h
          match rest with
          | [] => simp at h
          | c2 :: rest =>
            simp only at h
            by_cases h5 : isCont c2 = true
            · rw [if_pos h5] at h; have := utf8Check_ge _ _ _ _ h; omega
            · rw [if_neg h5] at h; simp at h; subst h
              refine ⟨by simp, by simp, .inr ?_, fun ext => ?_⟩ <;>
              simp only [List.take_succ_cons, List.take_zero, List.cons_append, List.nil_append] <;>
              rw [utf8Check_cons, if_neg h1, if_neg h2, if_pos h3] <;> simp [h4, h5]
        · rw [if_neg h4] at h; simp at h; subst h
          refine ⟨by simp, by simp, .inl rfl, fun ext => ?_⟩
          simp only [List.take_succ_cons, List.take_zero, List.cons_append, List.nil_append]
          rw [utf8Check_cons, if_neg h1, if_neg h2, if_pos h3]; simp [h4]
    rw [if_neg h3] at h
    by_cases h4 : 0xF0 ≤ b ∧ b ≤ 0xF4
    · rw [if_pos h4] at h
      match rest with
      | [] => simp at h
      | c1 :: rest =>
        simp only at h
        by_cases h5 : second4 b c1 = true
        · rw [if_pos h5] at h
          match rest with
          | [] => simp at h
          | c2 :: rest =>
            simp only at h
            by_cases h6 : isCont c2 = true
            · rw [if_pos h6] at h
              match rest with
              | [] => simp at h
              | c3 :: rest =>
                simp only at h
                by_cases h7 : isCont c3 = true
                · rw [if_pos h7] at h; have := utf8Check_ge _ _ _ _ h; omega
                · rw [if_neg h7] at h; simp at h; subst h
                  refine ⟨by simp, by simp, .inr ?_, fun ext => ?_⟩ <;>
                  simp only [List.take_succ_cons, List.take_zero, List.cons_append, List.nil_append] <;>
                  rw [utf8Check_cons, if_neg h1, if_neg h2, if_neg h3, if_pos h4] <;> simp [h5, h6, h7]
            · rw [if_neg h6] at h; simp at h; subst h
              refine ⟨by simp, by simp, .inr ?_, fun ext => ?_⟩ <;>
              simp only [List.take_succ_cons, List.take_zero, List.cons_append, List.nil_append] <;>
              rw [utf8Check_cons, if_neg h1, if_neg h2, if_neg h3, if_pos h4] <;> simp [h5, h6]
        · rw [if_neg h5] at h; simp at h; subst h
          refine ⟨by simp, by simp, .inl rfl, fun ext => ?_⟩
          simp only [List.take_succ_cons, List.take_zero, List.cons_append, List.nil_append]
          rw [utf8Check_cons, if_neg h1, if_neg h2, if_neg h3, if_pos h4]; simp [h5]
    · rw [if_neg h4] at h; simp at h; subst h
      refine ⟨by simp, by simp, .inl rfl, fun ext => ?_⟩
      match rest with
      | [] =>
        simp only [List.take_succ_cons, List.take_nil, List.cons_append, List.nil_append]
        rw [utf8Check_cons, if_neg h1, if_neg h2, if_neg h3, if_neg h4]
      | c :: rest =>
        simp only [List.take_succ_cons, List.take_zero, List.cons_append, List.nil_append]
        rw [utf8Check_cons, if_neg h1, if_neg h2, if_neg h3, if_neg h4]

theorem utf8Char_ne (c : Char) : utf8Char c ≠ [] := by
  unfold utf8Char; simp only; (repeat' split) <;> simp

/-- What can be completed to a sequence of characters and does not start with one is the start of a
character. -/
theorem utf8_start {off : Nat} {q ext : Bytes} (h : utf8Check off (q ++ ext) = none) (hq : q ≠ [])
    (hn : ∀ c, ¬ utf8Char c <+: q) : ∃ c, q <+: utf8Char c ∧ q ≠ utf8Char c := by
  have := utf8Check_spec off (q ++ ext)
  rw [h] at this
  obtain ⟨cs, hcs⟩ := this
  match cs with
  | [] => simp at hcs; exact absurd hcs.1 hq
  | c :: cs =>
    rw [List.flatMap_cons] at hcs
    have h1 : q <+: utf8Char c ++ cs.flatMap utf8Char := ⟨ext, hcs⟩
    rcases List.prefix_or_prefix_of_prefix h1 (List.prefix_append (utf8Char c) _) with h2 | h2
    · exact ⟨c, h2, fun he => hn c (he ▸ List.prefix_refl _)⟩
    · exact absurd h2 (hn c)

theorem utf8_stuck {off : Nat} {q : Bytes} (hq : q ≠ []) (hn : ∀ c, ¬ utf8Char c <+: q) :
    (utf8Check off q = some (off, none) ∧ ∃ c, q <+: utf8Char c ∧ q ≠ utf8Char c) ∨
    (∃ n, utf8Check off q = some (off, some n) ∧ 1 ≤ n ∧ n ≤ q.length ∧
      (n = 1 ∨ ∃ c, q.take n <+: utf8Char c) ∧ ∀ c, ¬ q.take (n + 1) <+: utf8Char c) := by
  have h := utf8Check_spec off q
  rcases hc : utf8Check off q with _ | ⟨v, y⟩
  · rw [hc] at h
    obtain ⟨cs, hcs⟩ := h
    match cs with
    | [] => exact absurd hcs hq
    | c :: cs => exact absurd ⟨_, hcs.symm⟩ (hn c)
  · rw [hc] at h
    obtain ⟨cs, rest, hcs, hv, hr⟩ := h
    match cs with
    | c :: cs =>
      rw [List.flatMap_cons, List.append_assoc] at hcs
      exact absurd ⟨_, hcs.symm⟩ (hn c)
    | [] =>
      simp at hv
      subst hv
      match y with
      | none =>
        obtain ⟨ext, he⟩ := utf8Check_incomplete hc
        exact .inl ⟨rfl, utf8_start he hq hn⟩
      | some n =>
        obtain ⟨h1, h2, h3, h4⟩ := utf8Check_invalid hc
        refine .inr ⟨n, rfl, h1, h2, ?_, ?_⟩
        · rcases h3 with h3 | h3
          · exact .inl h3
          · right
            obtain ⟨ext, he⟩ := utf8Check_incomplete h3
            obtain ⟨c, h5, _⟩ := utf8_start he (by
              intro h0
              rw [← List.length_eq_zero_iff, List.length_take] at h0
              omega) (fun c hc' => hn c (hc'.trans (List.take_prefix _ _)))
            exact ⟨c, h5⟩
        · rintro c ⟨ext, he⟩
          have h5 := h4 ext
          have h6 := utf8Check_char c v []
          rw [he] at h5
          rw [List.append_nil, h5, utf8Check] at h6
          cases h6

/-- The first byte tells the length of a character. -/
theorem utf8Char_len (c : Char) : ∃ b t, utf8Char c = b :: t ∧ t.length =
    if b.toNat < 0x80 then 0 else if b.toNat < 0xE0 then 1 else if b.toNat < 0xF0 then 2 else 3 := by
  have hv := char_valid c
  unfold utf8Char
  generalize c.val.toNat = n at hv ⊢
  simp only
  split
  · refine ⟨_, _, rfl, ?_⟩
    rw [ofNat_toNat (by omega), if_pos (by omega)]; rfl
  split
  · refine ⟨_, _, rfl, ?_⟩
    rw [ofNat_toNat (by omega), if_neg (by omega), if_pos (by omega)]; rfl
  split
  · refine ⟨_, _, rfl, ?_⟩
    rw [ofNat_toNat (by omega), if_neg (by omega), if_neg (by omega), if_pos (by omega)]; rfl
  · refine ⟨_, _, rfl, ?_⟩
    rw [ofNat_toNat (by omega), if_neg (by omega), if_neg (by omega), if_neg (by omega)]; rfl

theorem utf8_iff {v : Bytes} {e : FromUtf8Error} :
    FUtf8 v e ↔ ∃ k y, utf8Check 0 v = some (k, y) ∧ e = ⟨v, k, y⟩ := by
  constructor
  · intro h
    cases h with
    | @incomplete p q c hp hq h1 h2 =>
      obtain ⟨cs, rfl⟩ := hp
      have hn : ∀ c', ¬ utf8Char c' <+: q := by
        rintro c' ⟨t, ht⟩
        obtain ⟨s, hs⟩ := h1
        obtain ⟨b, u, e1, l1⟩ := utf8Char_len c
        obtain ⟨b', u', e2, l2⟩ := utf8Char_len c'
        rw [← ht, List.append_assoc, e1, e2, List.cons_append, List.cons.injEq] at hs
        obtain ⟨rfl, hs⟩ := hs
        have hl := congrArg List.length hs
        simp only [List.length_append] at hl
        have hs0 : s = [] := List.length_eq_zero_iff.1 (by omega)
        have ht0 : t = [] := List.length_eq_zero_iff.1 (by omega)
        subst hs0 ht0
        simp only [List.append_nil] at hs ht
        exact h2 (by rw [← ht, e1, e2, hs])
      have e0 := utf8Check_append_chars cs 0 q
      rw [Nat.zero_add] at e0
      rcases utf8_stuck (off := (cs.flatMap utf8Char).length) hq hn with ⟨h3, _⟩ | ⟨n, h3, h4, h5, h6, h7⟩
      · exact ⟨_, _, e0.trans h3, rfl⟩
      · exact absurd ((List.take_prefix _ _).trans h1) (h7 c)
    | @invalid p q n hp h1 h2 h3 h4 h5 =>
      obtain ⟨cs, rfl⟩ := hp
      have e0 := utf8Check_append_chars cs 0 q
      rw [Nat.zero_add] at e0
      have hq : q ≠ [] := by rintro rfl; simp at h2; omega
      rcases utf8_stuck (off := (cs.flatMap utf8Char).length) hq h3 with ⟨h6, c, h7, _⟩ | ⟨m, h6, h7, h8, h9, h10⟩
      · exact absurd ((List.take_prefix _ _).trans h7) (h5 c)
      · have hnm : n = m := by
          rcases Nat.lt_trichotomy n m with hlt | heq | hgt
          · rcases h9 with h9 | ⟨c, h9⟩
            · omega
            · exact absurd ((List.take_prefix_take_left (by omega)).trans h9) (h5 c)
          · exact heq
          · rcases h4 with h4 | ⟨c, h4⟩
            · omega
            · exact absurd ((List.take_prefix_take_left (by omega)).trans h4) (h10 c)
        subst hnm
        exact ⟨_, _, e0.trans h6, rfl⟩
  · rintro ⟨k, y, h, rfl⟩
    have hs := utf8Check_spec 0 v
    rw [h] at hs
    obtain ⟨cs, q, rfl, hk, hq, hn⟩ := hs
    have hn' : ∀ c, ¬ utf8Char c <+: q := fun c ⟨t, ht⟩ => hn c t ht.symm
    rw [utf8Check_append_chars, Nat.zero_add] at h
    rw [Nat.zero_add] at hk
    subst hk
    rcases utf8_stuck (off := (cs.flatMap utf8Char).length) hq hn' with ⟨h3, c, h4, h5⟩ | ⟨n, h3, h4, h5, h6, h7⟩
    · rw [h] at h3; cases h3
      exact .incomplete ⟨cs, rfl⟩ hq h4 h5
    · rw [h] at h3; cases h3
      exact .invalid ⟨cs, rfl⟩ h4 h5 hn' h6 h7

variable {R : Type} [LawfulRead R]

theorem name_faults : Faults (decodeName : Dec R _ _) FName := by
  refine Faults.mk ?_ ?_
  · refine Errs.bind (Errs.mapErr (Errs.mono byteVec_faults.errs fun x b e h => .bytes h))
      (Sound.mapErr byteVec_sound) fun v b hv => ?_
    split
    · exact Errs.pure
    · rename_i k y h
      exact Errs.err fun x t => .utf8 hv (utf8_iff.2 ⟨k, y, h, rfl⟩)
  · intro x bs e h
    cases h with
    | bytes h => exact FailsIn.bind1 (FailsIn.mapErr (byteVec_faults.fails h))
    | utf8 h1 h2 =>
      obtain ⟨k, y, h3, rfl⟩ := utf8_iff.1 h2
      refine FailsIn.bind2 (Runs.mapErr (byteVec_runs h1)) ?_
      rw [h3]
      exact FailsIn.err

end Wadec
