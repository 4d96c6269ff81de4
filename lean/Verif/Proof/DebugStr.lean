import Verif.Proof.DebugBase

/-! The texts of strings can be read back. -/

namespace Wadec

open Spec

theorem ofNat_val (c : Char) : Char.ofNat c.val.toNat = c := by
  exact Char.ofNat_toNat c

theorem utf8Chars_char (c : Char) (rest : List UInt8) : utf8Chars (utf8Char c ++ rest) = c :: utf8Chars rest := by
  have hv := char_valid c
  have hc := ofNat_val c
  unfold utf8Char
  generalize c.val.toNat = n at hv hc ⊢
  simp only
  split
  · rename_i h
    simp only [List.cons_append, List.nil_append]
    rw [utf8Chars.eq_def]
    simp only
    rw [if_pos (by rw [UInt8.lt_iff_toNat_lt, ofNat_toNat (by omega)]; exact h), ofNat_toNat (by omega), hc]
  split
  · rename_i h1 h2
    simp only [List.cons_append, List.nil_append]
    rw [utf8Chars.eq_def]
    simp only
    rw [if_neg (by rw [UInt8.lt_iff_toNat_lt, ofNat_toNat (by omega)]; simp; omega),
      if_pos (by rw [UInt8.lt_iff_toNat_lt, ofNat_toNat (by omega)]; simp; omega)]
    rw [ofNat_toNat (by omega), ofNat_toNat (by omega),
      show (192 + n / 64 - 192) * 64 + (128 + n % 64 - 128) = n by omega, hc]
  split
  · rename_i h1 h2 h3
    simp only [List.cons_append, List.nil_append]
    rw [utf8Chars.eq_def]
    simp only
    rw [if_neg (by rw [UInt8.lt_iff_toNat_lt, ofNat_toNat (by omega)]; simp; omega),
      if_neg (by rw [UInt8.lt_iff_toNat_lt, ofNat_toNat (by omega)]; simp <;> omega),
      if_pos (by rw [UInt8.lt_iff_toNat_lt, ofNat_toNat (by omega)]; simp; omega)]
    rw [ofNat_toNat (by omega), ofNat_toNat (by omega), ofNat_toNat (by omega),
      show (224 + n / 4096 - 224) * 4096 + (128 + n / 64 % 64 - 128) * 64 + (128 + n % 64 - 128) = n by omega, hc]
  · rename_i h1 h2 h3
    simp only [List.cons_append, List.nil_append]
    rw [utf8Chars.eq_def]
    simp only
    rw [if_neg (by rw [UInt8.lt_iff_toNat_lt, ofNat_toNat (by omega)]; simp; omega),
      if_neg (by rw [UInt8.lt_iff_toNat_lt, ofNat_toNat (by omega)]; simp; omega),
      if_neg (by rw [UInt8.lt_iff_toNat_lt, ofNat_toNat (by omega)]; simp <;> omega)]
    rw [ofNat_toNat (by omega), ofNat_toNat (by omega), ofNat_toNat (by omega), ofNat_toNat (by omega),
      show (240 + n / 262144 - 240) * 262144 + (128 + n / 4096 % 64 - 128) * 4096 +
        (128 + n / 64 % 64 - 128) * 64 + (128 + n % 64 - 128) = n by omega, hc]

theorem utf8Chars_chars (cs : List Char) : utf8Chars (cs.flatMap utf8Char) = cs := by
  induction cs with
  | nil => simp [utf8Chars]
  | cons c cs ih => rw [List.flatMap_cons, utf8Chars_char, ih]

theorem hex_inj : ∀ {n m : Nat}, Nat.toDigits 16 n = Nat.toDigits 16 m → n = m := by
  intro n
  induction n using Nat.strongRecOn with
  | _ n ih =>
    intro m h
    have hd : ∀ a, a < 16 → ∀ b, b < 16 → Nat.digitChar a = Nat.digitChar b → a = b := by decide
    have hl : ∀ k, 16 ≤ k → 1 < (Nat.toDigits 16 k).length := by
      intro k hk
      rw [Nat.toDigits_of_base_le (by decide) hk, List.length_append]
      have := List.length_pos_iff.2 (toDigits_ne (b := 16) (n := k / 16) (by decide))
      simp; omega
    by_cases hn : n < 16
    · by_cases hm : m < 16
      · rw [Nat.toDigits_of_lt_base hn, Nat.toDigits_of_lt_base hm] at h
        exact hd _ hn _ hm (by simpa using h)
      · have := hl m (by omega)
        rw [← h, Nat.toDigits_of_lt_base hn] at this
        simp at this
    · by_cases hm : m < 16
      · have := hl n (by omega)
        rw [h, Nat.toDigits_of_lt_base hm] at this
        simp at this
      · rw [Nat.toDigits_of_base_le (by decide) (by omega), Nat.toDigits_of_base_le (by decide) (show 16 ≤ m by omega)] at h
        obtain ⟨h1, h2⟩ := List.append_inj' h rfl
        have := ih (n / 16) (by omega) h1
        have := hd _ (Nat.mod_lt n (by decide)) _ (Nat.mod_lt m (by decide)) (by simpa using h2)
        omega

/-- The pieces that `escapeChar` writes. -/
theorem escape_cases (hidden : Char → Bool) (c : Char) :
    (∃ d, escapeChar hidden c = ['\\', d] ∧ d ≠ 'u' ∧ d ≠ '\n' ∧
      ∀ c', (∃ d', escapeChar hidden c' = ['\\', d'] ∧ d' = d) → c' = c) ∨
    escapeChar hidden c = '\\' :: 'u' :: '{' :: (Nat.toDigits 16 c.toNat ++ ['}']) ∨
    (escapeChar hidden c = [c] ∧ c ≠ '\\' ∧ c ≠ '"' ∧ c ≠ '\n') := by
  have key : ∀ (c' d : Char), escapeChar hidden c' = ['\\', d] →
      (d = '0' → c' = '\x00') ∧ (d = 't' → c' = '\t') ∧ (d = 'r' → c' = '\r') ∧ (d = 'n' → c' = '\n') ∧
      (d = '\\' → c' = '\\') ∧ (d = '"' → c' = '"') := by
    intro c' d h
    unfold escapeChar at h
    repeat' split at h
    all_goals first
      | (rename_i hc; subst hc; simp only [List.cons.injEq, and_true, true_and] at h; subst h; simp)
      | (simp at h)
  by_cases h0 : c = '\x00'
  · refine .inl ⟨'0', by simp [escapeChar, h0], by decide, by decide, ?_⟩
    rintro c' ⟨d', h, e⟩; rw [h0]; exact (key c' d' h).1 e
  by_cases h1 : c = '\t'
  · refine .inl ⟨'t', by simp [escapeChar, h1], by decide, by decide, ?_⟩
    rintro c' ⟨d', h, e⟩; rw [h1]; exact (key c' d' h).2.1 e
  by_cases h2 : c = '\r'
  · refine .inl ⟨'r', by simp [escapeChar, h2], by decide, by decide, ?_⟩
    rintro c' ⟨d', h, e⟩; rw [h2]; exact (key c' d' h).2.2.1 e
  by_cases h3 : c = '\n'
  · refine .inl ⟨'n', by simp [escapeChar, h3], by decide, by decide, ?_⟩
    rintro c' ⟨d', h, e⟩; rw [h3]; exact (key c' d' h).2.2.2.1 e
  by_cases h4 : c = '\\'
  · refine .inl ⟨'\\', by simp [escapeChar, h4], by decide, by decide, ?_⟩
    rintro c' ⟨d', h, e⟩; rw [h4]; exact (key c' d' h).2.2.2.2.1 e
  by_cases h5 : c = '"'
  · refine .inl ⟨'"', by simp [escapeChar, h5], by decide, by decide, ?_⟩
    rintro c' ⟨d', h, e⟩; rw [h5]; exact (key c' d' h).2.2.2.2.2 e
  cases hh : hidden c with
  | true => exact .inr (.inl (by simp [escapeChar, h0, h1, h2, h3, h4, h5, hh]))
  | false => exact .inr (.inr ⟨by simp [escapeChar, h0, h1, h2, h3, h4, h5, hh], h4, h5, h3⟩)

theorem hex_words (n : Nat) : (Nat.toDigits 16 n).all wordChar = true :=
  List.all_eq_true.2 fun _ h => wordChar_alnum (digit_word (by decide) (by decide) h)

theorem escape_inj {hidden : Char → Bool} {c d : Char} {x y : List Char}
    (h : escapeChar hidden c ++ x = escapeChar hidden d ++ y) : c = d ∧ x = y := by
  rcases escape_cases hidden c with ⟨c', hc, hu, _, _⟩ | hc | ⟨hc, hb, _, _⟩ <;>
  rcases escape_cases hidden d with ⟨d', hd, hu', _, inj'⟩ | hd | ⟨hd, hb', _, _⟩ <;>
  rw [hc, hd] at h <;>
  simp only [List.cons_append, List.nil_append, List.cons.injEq, true_and, List.append_assoc] at h
  · exact ⟨inj' c ⟨c', hc, h.1⟩, h.2⟩
  · exact absurd h.1 hu
  · exact absurd h.1.symm hb'
  · exact absurd h.1.symm hu'
  · obtain ⟨e1, e2⟩ := words_split (hex_words _) (hex_words _) rfl rfl h
    simp only [List.cons.injEq, true_and] at e2
    exact ⟨Char.toNat_inj.1 (hex_inj e1), e2⟩
  · exact absurd h.1.symm hb'
  · exact absurd h.1 hb
  · exact absurd h.1 hb
  · exact h

theorem escapes_inj {hidden : Char → Bool} : ∀ {cs ds : List Char},
    cs.flatMap (escapeChar hidden) = ds.flatMap (escapeChar hidden) → cs = ds
  | [], [], _ => rfl
  | c :: cs, d :: ds, h => by
    simp only [List.flatMap_cons] at h
    obtain ⟨rfl, h'⟩ := escape_inj h
    rw [escapes_inj h']
  | [], d :: ds, h => by
    simp only [List.flatMap_nil, List.flatMap_cons] at h
    rcases escape_cases hidden d with ⟨d', hd, _⟩ | hd | ⟨hd, _⟩ <;> rw [hd] at h <;> simp at h
  | c :: cs, [], h => by
    simp only [List.flatMap_nil, List.flatMap_cons] at h
    rcases escape_cases hidden c with ⟨d', hd, _⟩ | hd | ⟨hd, _⟩ <;> rw [hd] at h <;> simp at h

theorem closed_plain {c : Char} {cs : List Char} (h1 : c ≠ '\\') (h2 : c ≠ '"') (h3 : c ≠ '\n') :
    closed (c :: cs) = closed cs := by
  rw [closed]
  · simp [h1, h2, h3]
  · intro _ _ h; exact absurd h h1

theorem closed_words : ∀ {l x : List Char}, l.all wordChar = true → closed (l ++ x) = closed x
  | [], _, _ => rfl
  | c :: l, x, h => by
    simp only [List.all_cons, Bool.and_eq_true] at h
    rw [List.cons_append, closed_plain, closed_words h.2] <;> rintro rfl <;> exact absurd h.1 (by decide)

theorem escapes_closed (hidden : Char → Bool) : ∀ cs : List Char, closed (cs.flatMap (escapeChar hidden)) = true
  | [] => rfl
  | c :: cs => by
    rw [List.flatMap_cons]
    rcases escape_cases hidden c with ⟨d', hd, _, hn, _⟩ | hd | ⟨hd, h1, h2, h3⟩ <;> rw [hd]
    · simp only [List.cons_append, List.nil_append, closed, Bool.and_eq_true]
      exact ⟨by simpa using hn, escapes_closed hidden cs⟩
    · simp only [List.cons_append, List.append_assoc, List.nil_append]
      rw [show ∀ l, closed ('\\' :: 'u' :: l) = closed l from fun l => by simp [closed],
        closed_plain (by decide) (by decide) (by decide), closed_words (hex_words _),
        closed_plain (by decide) (by decide) (by decide)]
      exact escapes_closed hidden cs
    · rw [List.cons_append, List.nil_append, closed_plain h1 h2 h3]; exact escapes_closed hidden cs

theorem str_ok (T : StdText) (s : Str) : (dbg T s).Ok := by
  show (Dbg.str _).Ok
  simp only [Dbg.Ok, String.toList_ofList]
  exact escapes_closed _ _

theorem str_inj {T : StdText} {s s' : Str} (hs : ValidUtf8 s.bytes) (hs' : ValidUtf8 s'.bytes)
    (e : dbg T s = dbg T s') : s = s' := by
  have e : Dbg.str _ = Dbg.str _ := e
  injection e with e
  have e := congrArg String.toList e
  simp only [String.toList_ofList] at e
  have e := escapes_inj e
  obtain ⟨cs, h⟩ := hs
  obtain ⟨cs', h'⟩ := hs'
  rw [h, h', utf8Chars_chars, utf8Chars_chars] at e
  have hb : s.bytes = s'.bytes := by rw [h, h', e]
  cases s; cases s'
  exact congrArg Str.mk hb

end Wadec
