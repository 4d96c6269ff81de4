import Verif.Spec.Texts

/-! Reading hexadecimal numbers back from messages (C58). -/

namespace Wadec

open Spec

/-- A character that is no part of a number. -/
def IsSep (c : Char) : Prop := hexDigit c = none ∧ c ≠ 'x'

theorem IsSep.ne_zero {c : Char} (h : IsSep c) : c ≠ '0' := by
  rintro rfl
  exact absurd h.1 (by decide)

theorem hexNumber_sep {c : Char} (h : IsSep c) (t : List Char) : ∀ (l : List Char) (n : Nat),
    hexNumber n (l ++ c :: t) = ((hexNumber n l).1, (hexNumber n l).2 ++ c :: t)
  | [], n => by simp [hexNumber, h.1]
  | d :: l, n => by
    simp only [List.cons_append, hexNumber]
    cases hexDigit d with
    | none => rfl
    | some x => exact hexNumber_sep h t l _

theorem hexNumbers_skip {c : Char} (h : c ≠ '0') (t : List Char) : hexNumbers (c :: t) = hexNumbers t := by
  rw [hexNumbers]
  rintro t' h1
  cases h1
  exact absurd rfl h

theorem hexNumbers_sep {c : Char} (h : IsSep c) (t l : List Char) :
    hexNumbers (l ++ c :: t) = hexNumbers l ++ hexNumbers t := by
  fun_induction hexNumbers l with
  | case1 l _ ih =>
    simp only [List.cons_append]
    rw [hexNumbers, hexNumber_sep h]
    simp only [ih, List.cons_append]
  | case2 d l hd ih =>
    rw [List.cons_append, hexNumbers, ih]
    rintro t' h1 h2
    match l, h1, h2, hd with
    | [], h1, h2, _ =>
      cases h2
      exact absurd rfl h.2
    | d' :: l', h1, h2, hd =>
      simp only [List.cons_append, List.cons.injEq] at h2
      exact hd l' h1 (by rw [h2.1])
  | case3 =>
    rw [List.nil_append, hexNumbers_skip h.ne_zero]
    rfl

/-- The digit of a number below 16. -/
def hexChar (d : Nat) : Char := (Nat.digitChar d).toUpper

theorem hexDigit_hexChar : ∀ d, d < 16 → hexDigit (hexChar d) = some d := by decide

theorem upperHex_lt {n : Nat} (h : n < 16) : (upperHex n).toList = [hexChar n] := by
  simp [upperHex, Nat.toDigits_of_lt_base h, hexChar]

theorem upperHex_ge {n : Nat} (h : 16 ≤ n) :
    (upperHex n).toList = (upperHex (n / 16)).toList ++ [hexChar (n % 16)] := by
  simp [upperHex, Nat.toDigits_of_base_le (by decide : 1 < 16) h, hexChar]

theorem hexNumber_append {d : Nat} (hd : d < 16) : ∀ (l : List Char) (n : Nat),
    (hexNumber n l).2 = [] → hexNumber n (l ++ [hexChar d]) = (16 * (hexNumber n l).1 + d, [])
  | [], n, _ => by simp [hexNumber, hexDigit_hexChar d hd]
  | c :: l, n, h => by
    simp only [List.cons_append, hexNumber] at h ⊢
    cases hc : hexDigit c with
    | none => rw [hc] at h; cases h
    | some x =>
      rw [hc] at h
      exact hexNumber_append hd l _ h

/-- `{:X}` can be read back. -/
theorem hexNumber_upperHex (n : Nat) : hexNumber 0 (upperHex n).toList = (n, []) := by
  induction n using Nat.strongRecOn with
  | _ n ih =>
    by_cases h : n < 16
    · simp [upperHex_lt h, hexNumber, hexDigit_hexChar n h]
    · have h16 : 16 ≤ n := by omega
      have ih := ih (n / 16) (by omega)
      rw [upperHex_ge h16, hexNumber_append (by omega) _ _ (by rw [ih]), ih]
      simp only [Prod.mk.injEq, and_true]
      omega

theorem hexNumbers_0x (t : List Char) :
    hexNumbers ('0' :: 'x' :: t) = (hexNumber 0 t).1 :: hexNumbers (hexNumber 0 t).2 := by
  rw [hexNumbers]

theorem hexNumbers_upperHex (n : Nat) : hexNumbers ('0' :: 'x' :: (upperHex n).toList) = [n] := by
  rw [hexNumbers_0x, hexNumber_upperHex, hexNumbers]

/-- `{:#04X}` can be read back. -/
theorem hexNumbers_hex04 (n : Nat) : hexNumbers (hex04 n).toList = [n] := by
  unfold hex04
  split
  · have : ("0x0" ++ upperHex n).toList = '0' :: 'x' :: '0' :: (upperHex n).toList := by simp
    rw [this, hexNumbers_0x]
    have h0 : hexNumber 0 ('0' :: (upperHex n).toList) = hexNumber 0 (upperHex n).toList := by
      simp [hexNumber, show hexDigit '0' = some 0 by decide]
    rw [h0, hexNumber_upperHex, hexNumbers]
  · have : ("0x" ++ upperHex n).toList = '0' :: 'x' :: (upperHex n).toList := by simp
    rw [this, hexNumbers_upperHex]

theorem sep_space : IsSep ' ' := by constructor <;> decide
theorem sep_comma : IsSep ',' := by constructor <;> decide
theorem sep_newline : IsSep '\n' := by constructor <;> decide
theorem sep_open : IsSep '[' := by constructor <;> decide
theorem sep_close : IsSep ']' := by constructor <;> decide
theorem sep_paren : IsSep ')' := by constructor <;> decide

/-- A message that ends in a number. -/
theorem hexNumbers_got {l : List Nat} (s : String) (t : List Char) (hs : s.toList = t ++ [' '])
    (hl : hexNumbers t = l) (n : Nat) : hexNumbers (s ++ hex04 n).toList = l ++ [n] := by
  rw [String.toList_append, hs, List.append_assoc, List.singleton_append, hexNumbers_sep sep_space, hl,
    hexNumbers_hex04]

/-- The same, with conditions that can be evaluated. -/
theorem hexNumbers_msg {l : List Nat} (s : String) (h : s.toList = s.toList.dropLast ++ [' '] ∧
    hexNumbers s.toList.dropLast = l) (n : Nat) : hexNumbers (s ++ hex04 n).toList = l ++ [n] :=
  hexNumbers_got s _ h.1 h.2 n

theorem toList_join (l : List String) : (String.join l).toList = l.flatMap String.toList := by
  have h : ∀ (l : List String) (s : String), (l.foldl (· ++ ·) s).toList = s.toList ++ l.flatMap String.toList := by
    intro l
    induction l with
    | nil => simp
    | cons a l ih => intro s; simp [ih]
  have := h l ""
  simpa [String.join] using this

/-- `{:#X?}` of bytes can be read back. -/
theorem hexNumbers_array (bs : List UInt8) : hexNumbers (hexArray bs).toList = bs.map UInt8.toNat := by
  have hrow : ∀ (bs : List UInt8) (t : List Char),
      hexNumbers (bs.flatMap (fun b => "    0x".toList ++ (upperHex b.toNat).toList ++ ",\n".toList) ++ t) =
      bs.map UInt8.toNat ++ hexNumbers t := by
    intro bs t
    induction bs with
    | nil => simp
    | cons b bs ih =>
      have h1 : "    0x".toList = [' ', ' ', ' ', ' ', '0', 'x'] := by decide
      have h2 : ",\n".toList = [',', '\n'] := by decide
      simp only [h1, h2] at ih ⊢
      simp only [List.flatMap_cons, List.append_assoc, List.cons_append, List.nil_append]
      rw [hexNumbers_skip (by decide), hexNumbers_skip (by decide), hexNumbers_skip (by decide),
        hexNumbers_skip (by decide)]
      rw [show '0' :: 'x' :: ((upperHex b.toNat).toList ++ ',' :: '\n' :: _) =
        ('0' :: 'x' :: (upperHex b.toNat).toList) ++ ',' :: '\n' :: _ from rfl, hexNumbers_sep sep_comma,
        hexNumbers_upperHex, hexNumbers_skip (by decide)]
      simp only [List.append_assoc, List.cons_append, List.nil_append] at ih
      rw [ih]
      rfl
  unfold hexArray
  split
  · rename_i h
    rw [List.isEmpty_iff.1 h]
    decide +kernel
  · have h := hrow bs [']']
    have h3 : "[\n".toList = ['[', '\n'] := by decide
    simp only [String.toList_append, toList_join, List.flatMap_map, h3, List.cons_append, List.nil_append]
    rw [hexNumbers_skip (by decide), hexNumbers_skip (by decide)]
    have h4 : "]".toList = [']'] := by decide
    simp only [h4]
    rw [h, hexNumbers_skip (by decide), hexNumbers]
    simp

/-! ### Decimal numbers -/

theorem digit_digitChar : ∀ d, d < 10 → digit (Nat.digitChar d) = some d := by decide

theorem numbersFrom_digits (n : Nat) (t : List Char) :
    numbersFrom none (Nat.toDigits 10 n ++ t) = numbersFrom (some n) t := by
  induction n using Nat.strongRecOn generalizing t with
  | _ n ih =>
    by_cases h : n < 10
    · rw [Nat.toDigits_of_lt_base h]
      simp [numbersFrom, digit_digitChar n h]
    · rw [Nat.toDigits_of_base_le (by decide) (by omega), List.append_assoc, ih _ (by omega)]
      simp only [List.singleton_append, numbersFrom, digit_digitChar _ (Nat.mod_lt n (by decide : 0 < 10)),
        Option.getD_some]
      congr 2
      omega

theorem numbersFrom_sep {c : Char} (h : digit c = none) (t : List Char) : ∀ (l : List Char) (n : Option Nat),
    numbersFrom n (l ++ c :: t) = numbersFrom n l ++ numbersFrom none t
  | [], n => by simp [numbersFrom, h]
  | d :: l, n => by
    simp only [List.cons_append, numbersFrom]
    cases digit d with
    | none => simp [numbersFrom_sep h t l]
    | some x => exact numbersFrom_sep h t l _

/-- A literal that neither starts nor ends with a digit. -/
def okLit (s : String) : Bool :=
  match s.toList with
  | [] => false
  | c :: t => digit c == none && digit ((c :: t).getLast (by simp)) == none

theorem okLit_first {s : String} (h : okLit s = true) : ∃ c t, s.toList = c :: t ∧ digit c = none := by
  unfold okLit at h
  split at h
  · cases h
  · rename_i c t hs
    simp at h
    exact ⟨c, t, hs, h.1⟩

theorem okLit_last {s : String} (h : okLit s = true) : ∃ c t, s.toList = t ++ [c] ∧ digit c = none := by
  unfold okLit at h
  split at h
  · cases h
  · rename_i c t hs
    simp at h
    exact ⟨_, _, by rw [hs]; exact (List.dropLast_concat_getLast (by simp)).symm, h.2⟩

/-- The decimal numbers in a string. -/
abbrev numbers (s : String) : List Nat := numbersFrom none s.toList

/-- A text that does not start with a digit after a text. -/
theorem numbers_append (s : String) {u : String} (h : ∃ c t, u.toList = c :: t ∧ digit c = none) :
    numbers (s ++ u) = numbers s ++ numbers u := by
  obtain ⟨c, t, hs, hc⟩ := h
  simp only [numbers, String.toList_append, hs, numbersFrom_sep hc]
  simp [numbersFrom, hc]

/-- A literal after a text. -/
theorem numbers_lit (s : String) {u : String} (h : okLit u = true) : numbers (s ++ u) = numbers s ++ numbers u :=
  numbers_append s (okLit_first h)

/-- A number after a literal. -/
theorem numbers_num (s : String) {u : String} (h : okLit u = true) (n : Nat) :
    numbers (s ++ u ++ toString n) = numbers s ++ numbers u ++ [n] := by
  rw [← numbers_lit s h]
  obtain ⟨c, t, hs, hc⟩ := okLit_last h
  have h1 : (s ++ u ++ toString n).toList = (s.toList ++ t) ++ c :: (Nat.toDigits 10 n ++ []) := by
    simp [hs, toString, Nat.repr]
  have h2 : (s ++ u).toList = (s.toList ++ t) ++ c :: [] := by simp [hs]
  simp only [numbers]
  rw [h1, h2, numbersFrom_sep hc, numbersFrom_sep hc, numbersFrom_digits]
  simp [numbersFrom]

/-- A number after the first literal. -/
theorem numbers_num' {u : String} (h : okLit u = true) (n : Nat) :
    numbers (u ++ toString n) = numbers u ++ [n] := by
  have := numbers_num "" h n
  simpa [numbers, numbersFrom] using this

end Wadec
