import Verif.Proof.Debug
import Verif.Model.DebugCore

/-! Types whose `Debug` tree determines the value. -/

namespace Wadec

/-- The `Debug` tree of a value of the type is well formed and determines the value. -/
class Tells (α : Type) [Debug α] : Prop where
  ok : ∀ {T : StdText}, T.Ok → ∀ a : α, (dbg T a).Ok
  inj : ∀ {T : StdText}, T.Ok → ∀ {a b : α}, dbg T a = dbg T b → a = b

/-! ### Trees -/

theorem noWay {P : Prop} {d1 d2 : Dbg} (e : d1 = d2) (h : (d1.head == d2.head) = false) : P := by
  subst e; simp at h

theorem ok_word {s : String} (h : isWord s = true) : (Dbg.word s).Ok := by simp only [Dbg.Ok]; exact h
theorem okI_nil : okItems [] := by simp only [okItems]
theorem okI_cons {d : Dbg} {ds : List Dbg} (h : d.Ok) (hs : okItems ds) : okItems (d :: ds) := by
  simp only [okItems]; exact ⟨h, hs⟩
theorem okF_nil : okFields [] := by simp only [okFields]
theorem okF_cons {k : String} {d : Dbg} {ds : List (String × Dbg)} (hk : isWord k = true) (h : d.Ok)
    (hs : okFields ds) : okFields ((k, d) :: ds) := by simp only [okFields]; exact ⟨hk, h, hs⟩
theorem ok_tuple {n : String} {d : Dbg} {ds : List Dbg} (hn : isWord n = true) (h : okItems (d :: ds)) :
    (Dbg.tuple n (d :: ds)).Ok := by simp only [Dbg.Ok]; exact ⟨hn, by simp, h⟩
theorem ok_struct {n : String} {d : String × Dbg} {ds : List (String × Dbg)} (hn : isWord n = true)
    (h : okFields (d :: ds)) : (Dbg.struct n (d :: ds)).Ok := by simp only [Dbg.Ok]; exact ⟨hn, by simp, h⟩
theorem ok_path {n : String} {d : Dbg} (hn : isWord n = true) (h : d.Ok) : (Dbg.path n d).Ok := by
  simp only [Dbg.Ok]; exact ⟨hn, h⟩
theorem ok_list {ds : List Dbg} (h : okItems ds) : (Dbg.list ds).Ok := by simp only [Dbg.Ok]; exact h
theorem okI_map {α : Type} {f : α → Dbg} : ∀ {xs : List α}, (∀ x ∈ xs, (f x).Ok) → okItems (xs.map f)
  | [], _ => okI_nil
  | x :: xs, h => okI_cons (h x (by simp)) (okI_map fun y hy => h y (by simp [hy]))

theorem word_eq {a b : String} (e : Dbg.word a = .word b) : a = b := by injection e
theorem tuple1 {n n' : String} {a b : Dbg} (e : Dbg.tuple n [a] = .tuple n' [b]) : a = b := by
  simp only [Dbg.tuple.injEq, List.cons.injEq, and_true] at e; exact e.2
theorem tuple2 {n n' : String} {a b a' b' : Dbg} (e : Dbg.tuple n [a, a'] = .tuple n' [b, b']) : a = b ∧ a' = b' := by
  simp only [Dbg.tuple.injEq, List.cons.injEq, and_true] at e; exact e.2
theorem tuple3 {n n' : String} {a b a' b' a'' b'' : Dbg} (e : Dbg.tuple n [a, a', a''] = .tuple n' [b, b', b'']) :
    a = b ∧ a' = b' ∧ a'' = b'' := by
  simp only [Dbg.tuple.injEq, List.cons.injEq, and_true] at e; exact e.2
theorem struct1 {n n' : String} {k l : String} {a b : Dbg} (e : Dbg.struct n [(k, a)] = .struct n' [(l, b)]) :
    a = b := by
  simp only [Dbg.struct.injEq, List.cons.injEq, Prod.mk.injEq, and_true] at e; exact e.2.2
theorem struct2 {n n' : String} {k l k' l' : String} {a b a' b' : Dbg}
    (e : Dbg.struct n [(k, a), (k', a')] = .struct n' [(l, b), (l', b')]) : a = b ∧ a' = b' := by
  simp only [Dbg.struct.injEq, List.cons.injEq, Prod.mk.injEq, and_true] at e; exact ⟨e.2.1.2, e.2.2.2⟩
theorem struct3 {n n' : String} {k l k' l' k'' l'' : String} {a b a' b' a'' b'' : Dbg}
    (e : Dbg.struct n [(k, a), (k', a'), (k'', a'')] = .struct n' [(l, b), (l', b'), (l'', b'')]) :
    a = b ∧ a' = b' ∧ a'' = b'' := by
  simp only [Dbg.struct.injEq, List.cons.injEq, Prod.mk.injEq, and_true] at e; exact ⟨e.2.1.2, e.2.2.1.2, e.2.2.2.2⟩
theorem path_eq {n n' : String} {a b : Dbg} (e : Dbg.path n a = .path n' b) : a = b := by injection e
theorem list_eq {xs ys : List Dbg} (e : Dbg.list xs = .list ys) : xs = ys := by injection e

theorem map_inj_of {α β γ : Type} {f : α → γ} {g : α → β} : ∀ {xs ys : List α},
    (∀ x ∈ xs, ∀ y ∈ ys, f x = f y → g x = g y) → xs.map f = ys.map f → xs.map g = ys.map g
  | [], [], _, _ => rfl
  | [], _ :: _, _, e => by simp at e
  | _ :: _, [], _, e => by simp at e
  | x :: xs, y :: ys, h, e => by
    simp only [List.map_cons, List.cons.injEq] at e
    simp only [List.map_cons, List.cons.injEq]
    exact ⟨h x (by simp) y (by simp) e.1,
      map_inj_of (fun a ha b hb => h a (by simp [ha]) b (by simp [hb])) e.2⟩

theorem map_inj' {α γ : Type} {f : α → γ} {xs ys : List α}
    (h : ∀ x ∈ xs, ∀ y ∈ ys, f x = f y → x = y) (e : xs.map f = ys.map f) : xs = ys := by
  simpa using map_inj_of (g := id) h e

/-! ### Numbers -/

theorem nat_text {n m : Nat} (h : toString n = toString m) : n = m := by
  have e := congrArg String.toList h
  simp at e
  rw [← @Nat.ofDigitChars_ten_toDigits n, ← @Nat.ofDigitChars_ten_toDigits m, e]

theorem digit_word {b n : Nat} (hb : b ≤ 16) {c : Char} (h1 : 1 < b) (h : c ∈ Nat.toDigits b n) :
    c.isAlphanum = true := by
  induction n using Nat.strongRecOn with
  | _ n ih =>
    have hd : ∀ d, d < 16 → (Nat.digitChar d).isAlphanum = true := by decide
    by_cases hn : n < b
    · rw [Nat.toDigits_of_lt_base hn] at h
      simp only [List.mem_singleton] at h
      subst h; exact hd _ (by omega)
    · rw [Nat.toDigits_of_base_le h1 (by omega)] at h
      simp only [List.mem_append, List.mem_singleton] at h
      rcases h with h | h
      · exact ih (n / b) (Nat.div_lt_self (by omega) h1) h
      · subst h; exact hd _ (by have := Nat.mod_lt n (show b > 0 by omega); omega)

theorem toDigits_ne {b n : Nat} (h1 : 1 < b) : Nat.toDigits b n ≠ [] := by
  by_cases hn : n < b
  · rw [Nat.toDigits_of_lt_base hn]; simp
  · rw [Nat.toDigits_of_base_le h1 (by omega)]; simp

theorem isWord_of {s : String} (h : s.toList ≠ []) (ha : ∀ c ∈ s.toList, wordChar c = true) : isWord s = true := by
  simp only [isWord, Bool.and_eq_true, Bool.not_eq_true', List.all_eq_true]
  refine ⟨?_, ha⟩
  cases hl : s.toList with
  | nil => exact absurd hl h
  | cons _ _ => rfl

theorem wordChar_alnum {c : Char} (h : c.isAlphanum = true) : wordChar c = true := by simp [wordChar, h]

theorem nat_word (n : Nat) : isWord (toString n) = true := by
  apply isWord_of
  · simpa using toDigits_ne (b := 10) (n := n) (by decide)
  · intro c hc
    simp at hc
    exact wordChar_alnum (digit_word (by decide) (by decide) hc)

theorem int_toString (n : Nat) : toString (Int.ofNat n) = toString n := rfl
theorem int_toString_neg (n : Nat) : toString (Int.negSucc n) = "-" ++ toString (n + 1) := rfl

theorem int_word (z : Int) : isWord (toString z) = true := by
  cases z with
  | ofNat n => exact nat_word n
  | negSucc n =>
    rw [int_toString_neg]
    apply isWord_of
    · simp
    · intro c hc
      simp only [String.toList_append, List.mem_append] at hc
      rcases hc with hc | hc
      · have : c = '-' := by simpa using hc
        subst this; decide
      · simp at hc
        exact wordChar_alnum (digit_word (by decide) (by decide) hc)

theorem int_text {x y : Int} (h : toString x = toString y) : x = y := by
  have no : ∀ n m : Nat, toString n ≠ "-" ++ toString (m + 1) := by
    intro n m e
    have e := congrArg String.toList e
    simp only [String.toList_append] at e
    have hm : '-' ∈ (toString n).toList := by rw [e]; simp
    simp at hm
    exact absurd (digit_word (by decide) (by decide) hm) (by decide)
  cases x with
  | ofNat n => cases y with
    | ofNat m => exact congrArg Int.ofNat (nat_text h)
    | negSucc m => exact absurd h (no n m)
  | negSucc n => cases y with
    | ofNat m => exact absurd h.symm (no m n)
    | negSucc m =>
      rw [int_toString_neg, int_toString_neg] at h
      have e := congrArg String.toList h
      simp only [String.toList_append] at e
      have e := List.append_cancel_left e
      have : n + 1 = m + 1 := nat_text (String.toList_inj.1 e)
      have : n = m := by omega
      subst this; rfl

instance : Tells UInt8 := ⟨fun _ a => ok_word (nat_word a.toNat), fun _ _ _ e => UInt8.toNat.inj (nat_text (word_eq e))⟩
instance : Tells UInt32 :=
  ⟨fun _ a => ok_word (nat_word a.toNat), fun _ _ _ e => UInt32.toNat.inj (nat_text (word_eq e))⟩
instance : Tells UInt64 :=
  ⟨fun _ a => ok_word (nat_word a.toNat), fun _ _ _ e => UInt64.toNat.inj (nat_text (word_eq e))⟩
instance : Tells Nat := ⟨fun _ a => ok_word (nat_word a), fun _ _ _ e => nat_text (word_eq e)⟩
instance : Tells Int32 :=
  ⟨fun _ a => ok_word (int_word a.toInt), fun _ _ _ e => Int32.toInt.inj (int_text (word_eq e))⟩
instance : Tells Int64 :=
  ⟨fun _ a => ok_word (int_word a.toInt), fun _ _ _ e => Int64.toInt.inj (int_text (word_eq e))⟩
instance : Tells Bool where
  ok _ a := by cases a <;> exact ok_word rfl
  inj _ a b e := by cases a <;> cases b <;> first | rfl | exact noWay e rfl
instance {α : Type} [Debug α] [Tells α] : Tells (List α) where
  ok h _ := ok_list (okI_map fun x _ => Tells.ok h x)
  inj h _ _ e := map_inj' (fun _ _ _ _ => Tells.inj h) (list_eq e)
instance {α : Type} [Debug α] [Tells α] : Tells (Option α) where
  ok h a := by
    cases a with
    | none => exact ok_word rfl
    | some x => exact ok_tuple rfl (okI_cons (Tells.ok h x) okI_nil)
  inj h a b e := by
    cases a <;> cases b <;> first
      | rfl
      | exact noWay e rfl
      | exact congrArg some (Tells.inj h (tuple1 e))
instance : Tells Bytes16 where
  ok h a := Tells.ok h a.val
  inj h _ _ e := Subtype.ext (Tells.inj h e)
instance : Tells IoError := ⟨fun h e => h.io_ok e, fun h _ _ e => h.io_inj _ _ e⟩
instance : Tells FromUtf8Error where
  ok h a := ok_struct rfl (okF_cons rfl (Tells.ok h _) (okF_cons rfl
    (ok_struct rfl (okF_cons rfl (Tells.ok h _) (okF_cons rfl (Tells.ok h _) okF_nil))) okF_nil))
  inj h a b e := by
    obtain ⟨x, y⟩ := struct2 e
    obtain ⟨y, z⟩ := struct2 y
    cases a; cases b
    cases Tells.inj h x; cases Tells.inj h y; cases Tells.inj h z; rfl

end Wadec
