import Verif.Model.Helpers
import Verif.Spec.Binary

/-! The UTF-8 validation used by `decode_name` accepts exactly the UTF-8 encodings of sequences of
Unicode scalar values. -/

namespace Wadec

open Spec

/-- The character with code point `n`. -/
theorem exists_char {n : Nat} (h : n < 0xD800 ∨ (0xDFFF < n ∧ n < 0x110000)) :
    ∃ c : Char, c.val.toNat = n := by
  have hn : n < UInt32.size := by rcases h with h | h <;> simp [UInt32.size] <;> omega
  have e : (UInt32.ofNatLT n hn).toNat = n := UInt32.toNat_ofNatLT ..
  exact ⟨⟨UInt32.ofNatLT n hn, by
    unfold UInt32.isValidChar Nat.isValidChar
    rw [e]; exact h⟩, e⟩

theorem char_valid (c : Char) : c.val.toNat < 0xD800 ∨ (0xDFFF < c.val.toNat ∧ c.val.toNat < 0x110000) :=
  c.valid

theorem u8_eq {b : UInt8} {n : Nat} (h : b.toNat = n) : b = UInt8.ofNat n := by
  subst h; simp

theorem ofNat_toNat {n : Nat} (h : n < 256) : (UInt8.ofNat n).toNat = n := by
  simp [UInt8.toNat_ofNat', Nat.mod_eq_of_lt h]

theorem isCont_iff (b : UInt8) : isCont b = true ↔ 0x80 ≤ b.toNat ∧ b.toNat ≤ 0xBF := by
  simp [isCont, UInt8.le_iff_toNat_le]

theorem second3_iff (f b : UInt8) : second3 f b = true ↔
    (f.toNat = 0xE0 ∧ 0xA0 ≤ b.toNat ∧ b.toNat ≤ 0xBF) ∨
    (0xE1 ≤ f.toNat ∧ f.toNat ≤ 0xEC ∧ 0x80 ≤ b.toNat ∧ b.toNat ≤ 0xBF) ∨
    (f.toNat = 0xED ∧ 0x80 ≤ b.toNat ∧ b.toNat ≤ 0x9F) ∨
    (0xEE ≤ f.toNat ∧ f.toNat ≤ 0xEF ∧ 0x80 ≤ b.toNat ∧ b.toNat ≤ 0xBF) := by
  simp [second3, UInt8.le_iff_toNat_le, ← UInt8.toNat_inj, or_assoc, and_assoc]

theorem second4_iff (f b : UInt8) : second4 f b = true ↔
    (f.toNat = 0xF0 ∧ 0x90 ≤ b.toNat ∧ b.toNat ≤ 0xBF) ∨
    (0xF1 ≤ f.toNat ∧ f.toNat ≤ 0xF3 ∧ 0x80 ≤ b.toNat ∧ b.toNat ≤ 0xBF) ∨
    (f.toNat = 0xF4 ∧ 0x80 ≤ b.toNat ∧ b.toNat ≤ 0x8F) := by
  simp [second4, UInt8.le_iff_toNat_le, ← UInt8.toNat_inj, or_assoc, and_assoc]

theorem utf8Check_cons (off : Nat) (b : UInt8) (rest : List UInt8) : utf8Check off (b :: rest) =
    (if b < 0x80 then utf8Check (off + 1) rest
    else if 0xC2 ≤ b ∧ b ≤ 0xDF then
      match rest with
      | [] => some (off, none)
      | c1 :: rest1 => if isCont c1 then utf8Check (off + 2) rest1 else some (off, some 1)
    else if 0xE0 ≤ b ∧ b ≤ 0xEF then
      match rest with
      | [] => some (off, none)
      | c1 :: rest1 =>
        if second3 b c1 then
          match rest1 with
          | [] => some (off, none)
          | c2 :: rest2 => if isCont c2 then utf8Check (off + 3) rest2 else some (off, some 2)
        else some (off, some 1)
    else if 0xF0 ≤ b ∧ b ≤ 0xF4 then
      match rest with
      | [] => some (off, none)
      | c1 :: rest1 =>
        if second4 b c1 then
          match rest1 with
          | [] => some (off, none)
          | c2 :: rest2 =>
            if isCont c2 then
              match rest2 with
              | [] => some (off, none)
              | c3 :: rest3 => if isCont c3 then utf8Check (off + 4) rest3 else some (off, some 3)
            else some (off, some 2)
        else some (off, some 1)
    else some (off, some 1)) := by
  rw [utf8Check.eq_def]; rfl

/-- Running the check over one encoded character. -/
theorem utf8Check_char (c : Char) (off : Nat) (rest : List UInt8) :
    utf8Check off (utf8Char c ++ rest) = utf8Check (off + (utf8Char c).length) rest := by
  have hv := char_valid c
  unfold utf8Char
  generalize c.val.toNat = n at hv ⊢
  simp only
  split
  · rename_i h
    simp only [List.cons_append, List.nil_append, List.length_singleton]
    rw [utf8Check_cons, if_pos (by rw [UInt8.lt_iff_toNat_lt, ofNat_toNat (by omega)]; exact h)]
  split
  · rename_i h1 h2
    simp only [List.cons_append, List.nil_append, List.length_cons, List.length_nil]
    rw [utf8Check_cons, if_neg (by rw [UInt8.lt_iff_toNat_lt, ofNat_toNat (by omega)]; simp; omega),
      if_pos (by simp only [UInt8.le_iff_toNat_le]; rw [ofNat_toNat (by omega)]; simp; omega)]
    simp only
    rw [if_pos (by rw [isCont_iff, ofNat_toNat (by omega)]; omega)]
  split
  · rename_i h1 h2 h3
    simp only [List.cons_append, List.nil_append, List.length_cons, List.length_nil]
    rw [utf8Check_cons, if_neg (by rw [UInt8.lt_iff_toNat_lt, ofNat_toNat (by omega)]; simp; omega),
      if_neg (by simp only [UInt8.le_iff_toNat_le]; rw [ofNat_toNat (by omega)]; simp; omega),
      if_pos (by simp only [UInt8.le_iff_toNat_le]; rw [ofNat_toNat (by omega)]; simp; omega)]
    simp only
    rw [if_pos (by rw [second3_iff, ofNat_toNat (by omega), ofNat_toNat (by omega)]; omega),
      if_pos (by rw [isCont_iff, ofNat_toNat (by omega)]; omega)]
  · rename_i h1 h2 h3
    simp only [List.cons_append, List.nil_append, List.length_cons, List.length_nil]
    rw [utf8Check_cons, if_neg (by rw [UInt8.lt_iff_toNat_lt, ofNat_toNat (by omega)]; simp; omega),
      if_neg (by simp only [UInt8.le_iff_toNat_le]; rw [ofNat_toNat (by omega)]; simp; omega),
      if_neg (by simp only [UInt8.le_iff_toNat_le]; rw [ofNat_toNat (by omega)]; simp; omega),
      if_pos (by simp only [UInt8.le_iff_toNat_le]; rw [ofNat_toNat (by omega)]; simp; omega)]
    simp only
    rw [if_pos (by rw [second4_iff, ofNat_toNat (by omega), ofNat_toNat (by omega)]; omega),
      if_pos (by rw [isCont_iff, ofNat_toNat (by omega)]; omega),
      if_pos (by rw [isCont_iff, ofNat_toNat (by omega)]; omega)]

theorem utf8Check_append_chars (cs : List Char) : ∀ (off : Nat) (rest : List UInt8),
    utf8Check off (cs.flatMap utf8Char ++ rest) =
      utf8Check (off + (cs.flatMap utf8Char).length) rest := by
  induction cs with
  | nil => intros; simp
  | cons c cs ih =>
    intro off rest
    rw [List.flatMap_cons, List.append_assoc, utf8Check_char, ih]
    simp [Nat.add_assoc]

/-- What the check says: either everything is a sequence of characters, or there is a longest
such prefix, which the reported offset delimits, and the rest does not start with a character. -/
theorem utf8Check_spec : ∀ (off : Nat) (bs : List UInt8),
    match utf8Check off bs with
    | none => ∃ cs : List Char, bs = cs.flatMap utf8Char
    | some (v, _) => ∃ (cs : List Char) (rest : List UInt8), bs = cs.flatMap utf8Char ++ rest ∧
        v = off + (cs.flatMap utf8Char).length ∧ rest ≠ [] ∧ ∀ (c : Char) (t : List UInt8),
          rest ≠ utf8Char c ++ t := by
  have stuck : ∀ (off : Nat) (rest : List UInt8) (x : Option Nat), rest ≠ [] →
      utf8Check off rest = some (off, x) →
      (∀ off r, ∀ v y, utf8Check off r = some (v, y) → off ≤ v) →
      ∃ (cs : List Char) (rest' : List UInt8), rest = cs.flatMap utf8Char ++ rest' ∧
        off = off + (cs.flatMap utf8Char).length ∧ rest' ≠ [] ∧ ∀ (c : Char) (t : List UInt8),
          rest' ≠ utf8Char c ++ t := by
    intro off rest x hne h hge
    refine ⟨[], rest, by simp, by simp, hne, ?_⟩
    rintro c t rfl
    rw [utf8Check_char] at h
    have := hge _ _ _ _ h
    have hpos : 0 < (utf8Char c).length := by
      unfold utf8Char; simp only; (repeat' split) <;> simp
    omega
  have hge : ∀ (off : Nat) (r : List UInt8) v y, utf8Check off r = some (v, y) → off ≤ v := by
    intro off r
    fun_induction utf8Check off r <;> intro v y h <;> first | (cases h; done) | (cases h; omega) | skip
    all_goals (rename_i ih; have := ih v y h; omega)
  intro off bs
  induction hl : bs.length using Nat.strongRecOn generalizing off bs with
  | ind n ih =>
  -- continue after a character
  have cont : ∀ (c : Char) (rest : List UInt8), bs = utf8Char c ++ rest → rest.length < n →
      match utf8Check off bs with
      | none => ∃ cs : List Char, bs = cs.flatMap utf8Char
      | some (v, _) => ∃ (cs : List Char) (rest : List UInt8), bs = cs.flatMap utf8Char ++ rest ∧
          v = off + (cs.flatMap utf8Char).length ∧ rest ≠ [] ∧ ∀ (c : Char) (t : List UInt8),
            rest ≠ utf8Char c ++ t := by
    intro c rest hbs hlen
    have h := ih rest.length hlen (off + (utf8Char c).length) rest rfl
    rw [hbs, utf8Check_char]
    revert h
    cases utf8Check (off + (utf8Char c).length) rest with
    | none => rintro ⟨cs, rfl⟩; exact ⟨c :: cs, by simp⟩
    | some p =>
      obtain ⟨v, x⟩ := p
      rintro ⟨cs, r, rfl, h1, h2⟩
      exact ⟨c :: cs, r, by simp, by simp [h1]; omega, h2⟩
  have bad : ∀ x, bs ≠ [] → utf8Check off bs = some (off, x) →
      match utf8Check off bs with
      | none => ∃ cs : List Char, bs = cs.flatMap utf8Char
      | some (v, _) => ∃ (cs : List Char) (rest : List UInt8), bs = cs.flatMap utf8Char ++ rest ∧
          v = off + (cs.flatMap utf8Char).length ∧ rest ≠ [] ∧ ∀ (c : Char) (t : List UInt8),
            rest ≠ utf8Char c ++ t := by
    intro x hne h
    rw [h]
    exact stuck off bs x hne h hge
  match hbs : bs with
  | [] => rw [utf8Check]; exact ⟨[], rfl⟩
  | b :: rest =>
    rw [← hbs]
    have hbt := UInt8.toNat_lt b
    by_cases h1 : b < 0x80
    · rw [UInt8.lt_iff_toNat_lt] at h1
      obtain ⟨c, hc⟩ := exists_char (n := b.toNat) (by simp at h1; omega)
      refine hbs ▸ cont c rest ?_ (by simp at hl; omega)
      simp at h1
      unfold utf8Char
      simp only [hc]
      rw [if_pos (by omega)]
      simp
    · by_cases h2 : 0xC2 ≤ b ∧ b ≤ 0xDF
      · match rest, hbs with
        | [], hbs => exact hbs ▸ bad none (by simp) (by rw [utf8Check_cons, if_neg h1, if_pos h2])
        | c1 :: rest1, hbs =>
          by_cases hc1 : isCont c1 = true
          · simp only [UInt8.lt_iff_toNat_lt, UInt8.le_iff_toNat_le] at h1 h2
            rw [isCont_iff] at hc1
            simp at h1 h2
            obtain ⟨c, hc⟩ := exists_char (n := (b.toNat - 0xC0) * 0x40 + (c1.toNat - 0x80)) (by omega)
            refine hbs ▸ cont c rest1 ?_ (by simp at hl; omega)
            unfold utf8Char
            simp only [hc]
            rw [if_neg (by omega), if_pos (by omega)]
            simp only [List.cons_append, List.nil_append, List.cons.injEq, and_true]
            exact ⟨u8_eq (by omega), u8_eq (by omega)⟩
          · exact hbs ▸ bad (some 1) (by simp) (by rw [utf8Check_cons, if_neg h1, if_pos h2]; simp only; rw [if_neg hc1])
      · by_cases h3 : 0xE0 ≤ b ∧ b ≤ 0xEF
        · match rest, hbs with
          | [], hbs =>
            exact hbs ▸ bad none (by simp) (by rw [utf8Check_cons, if_neg h1, if_neg h2, if_pos h3])
          | [c1], hbs =>
            by_cases hc1 : second3 b c1 = true
            · exact hbs ▸ bad none (by simp)
                (by rw [utf8Check_cons, if_neg h1, if_neg h2, if_pos h3]; simp only; rw [if_pos hc1])
            · exact hbs ▸ bad (some 1) (by simp)
                (by rw [utf8Check_cons, if_neg h1, if_neg h2, if_pos h3]; simp only; rw [if_neg hc1])
          | c1 :: c2 :: rest2, hbs =>
            by_cases hc1 : second3 b c1 = true
            · by_cases hc2 : isCont c2 = true
              · simp only [UInt8.lt_iff_toNat_lt, UInt8.le_iff_toNat_le] at h1 h2 h3
                rw [isCont_iff] at hc2
                rw [second3_iff] at hc1
                simp at h1 h2 h3
                obtain ⟨c, hc⟩ := exists_char (n := (b.toNat - 0xE0) * 0x1000 +
                  (c1.toNat - 0x80) * 0x40 + (c2.toNat - 0x80)) (by omega)
                refine hbs ▸ cont c rest2 ?_ (by simp at hl; omega)
                unfold utf8Char
                simp only [hc]
                rw [if_neg (by omega), if_neg (by omega), if_pos (by omega)]
                simp only [List.cons_append, List.nil_append, List.cons.injEq, and_true]
                exact ⟨u8_eq (by omega), u8_eq (by omega), u8_eq (by omega)⟩
              · exact hbs ▸ bad (some 2) (by simp)
                  (by rw [utf8Check_cons, if_neg h1, if_neg h2, if_pos h3]; simp only
                      rw [if_pos hc1]; rw [if_neg hc2])
            · exact hbs ▸ bad (some 1) (by simp)
                (by rw [utf8Check_cons, if_neg h1, if_neg h2, if_pos h3]; simp only; rw [if_neg hc1])
        · by_cases h4 : 0xF0 ≤ b ∧ b ≤ 0xF4
          · match rest, hbs with
            | [], hbs =>
              exact hbs ▸ bad none (by simp)
                (by rw [utf8Check_cons, if_neg h1, if_neg h2, if_neg h3, if_pos h4])
            | [c1], hbs =>
              by_cases hc1 : second4 b c1 = true
              · exact hbs ▸ bad none (by simp)
                  (by rw [utf8Check_cons, if_neg h1, if_neg h2, if_neg h3, if_pos h4]; simp only
                      rw [if_pos hc1])
              · exact hbs ▸ bad (some 1) (by simp)
                  (by rw [utf8Check_cons, if_neg h1, if_neg h2, if_neg h3, if_pos h4]; simp only
                      rw [if_neg hc1])
            | [c1, c2], hbs =>
              by_cases hc1 : second4 b c1 = true
              · by_cases hc2 : isCont c2 = true
                · exact hbs ▸ bad none (by simp)
                    (by rw [utf8Check_cons, if_neg h1, if_neg h2, if_neg h3, if_pos h4]; simp only
                        rw [if_pos hc1]; rw [if_pos hc2])
                · exact hbs ▸ bad (some 2) (by simp)
                    (by rw [utf8Check_cons, if_neg h1, if_neg h2, if_neg h3, if_pos h4]; simp only
                        rw [if_pos hc1]; rw [if_neg hc2])
              · exact hbs ▸ bad (some 1) (by simp)
                  (by rw [utf8Check_cons, if_neg h1, if_neg h2, if_neg h3, if_pos h4]; simp only
                      rw [if_neg hc1])
            | c1 :: c2 :: c3 :: rest3, hbs =>
              by_cases hc1 : second4 b c1 = true
              · by_cases hc2 : isCont c2 = true
                · by_cases hc3 : isCont c3 = true
                  · simp only [UInt8.lt_iff_toNat_lt, UInt8.le_iff_toNat_le] at h1 h2 h3 h4
                    rw [isCont_iff] at hc2 hc3
                    rw [second4_iff] at hc1
                    simp at h1 h2 h3 h4
                    obtain ⟨c, hc⟩ := exists_char (n := (b.toNat - 0xF0) * 0x40000 +
                      (c1.toNat - 0x80) * 0x1000 + (c2.toNat - 0x80) * 0x40 + (c3.toNat - 0x80))
                      (by omega)
                    refine hbs ▸ cont c rest3 ?_ (by simp at hl; omega)
                    unfold utf8Char
                    simp only [hc]
                    rw [if_neg (by omega), if_neg (by omega), if_neg (by omega)]
                    simp only [List.cons_append, List.nil_append, List.cons.injEq, and_true]
                    exact ⟨u8_eq (by omega), u8_eq (by omega), u8_eq (by omega), u8_eq (by omega)⟩
                  · exact hbs ▸ bad (some 3) (by simp)
                      (by rw [utf8Check_cons, if_neg h1, if_neg h2, if_neg h3, if_pos h4]; simp only
                          rw [if_pos hc1]; rw [if_pos hc2]; rw [if_neg hc3])
                · exact hbs ▸ bad (some 2) (by simp)
                    (by rw [utf8Check_cons, if_neg h1, if_neg h2, if_neg h3, if_pos h4]; simp only
                        rw [if_pos hc1]; rw [if_neg hc2])
              · exact hbs ▸ bad (some 1) (by simp)
                  (by rw [utf8Check_cons, if_neg h1, if_neg h2, if_neg h3, if_pos h4]; simp only
                      rw [if_neg hc1])
          · exact hbs ▸ bad (some 1) (by simp)
              (by rw [utf8Check_cons, if_neg h1, if_neg h2, if_neg h3, if_neg h4])

theorem utf8Check_none_iff (bs : List UInt8) : utf8Check 0 bs = none ↔ ValidUtf8 bs := by
  constructor
  · intro h
    have := utf8Check_spec 0 bs
    rw [h] at this
    exact this
  · rintro ⟨cs, rfl⟩
    have := utf8Check_append_chars cs 0 []
    rw [List.append_nil] at this
    rw [this, utf8Check]

end Wadec
