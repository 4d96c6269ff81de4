import Verif.Proof.DebugBase
import Verif.Spec.Size

/-! C78: the length of a debug text.  `Dbg.ink` counts what is written apart from indentation, `Dbg.tall` the levels of
indentation; `pretty_length` and `compact_length` bound the texts by them. -/

namespace Wadec

mutual
/-- characters written, indentation not counted -/
def Dbg.ink : Dbg → Nat
  | .word s => s.toList.length
  | .str s => s.toList.length + 2
  | .unit => 2
  | .tuple n fs => n.toList.length + 3 + inkItems fs
  | .struct n fs => n.toList.length + 5 + inkFields fs
  | .list xs => 3 + inkItems xs
  | .path n d => n.toList.length + 2 + d.ink
def inkItems : List Dbg → Nat
  | [] => 0
  | f :: fs => f.ink + 2 + inkItems fs
def inkFields : List (String × Dbg) → Nat
  | [] => 0
  | (k, f) :: fs => k.toList.length + 4 + f.ink + inkFields fs
end

mutual
/-- levels of indentation -/
def Dbg.tall : Dbg → Nat
  | .word _ => 0
  | .str _ => 0
  | .unit => 0
  | .tuple _ fs => tallItems fs
  | .struct _ fs => tallFields fs
  | .list xs => tallItems xs
  | .path _ d => d.tall
def tallItems : List Dbg → Nat
  | [] => 0
  | f :: fs => max (f.tall + 1) (tallItems fs)
def tallFields : List (String × Dbg) → Nat
  | [] => 0
  | (_, f) :: fs => max (f.tall + 1) (tallFields fs)
end

mutual
/-- no `type_name::value` inside -/
def Dbg.Pathless : Dbg → Prop
  | .word _ => True
  | .str _ => True
  | .unit => True
  | .tuple _ fs => pathlessItems fs
  | .struct _ fs => pathlessFields fs
  | .list xs => pathlessItems xs
  | .path _ _ => False
def pathlessItems : List Dbg → Prop
  | [] => True
  | f :: fs => f.Pathless ∧ pathlessItems fs
def pathlessFields : List (String × Dbg) → Prop
  | [] => True
  | (_, f) :: fs => f.Pathless ∧ pathlessFields fs
end

/-- line breaks in a text -/
def breaks : List Char → Nat
  | [] => 0
  | c :: cs => (if c = '\n' then 1 else 0) + breaks cs

theorem breaks_append (a b : List Char) : breaks (a ++ b) = breaks a + breaks b := by
  induction a with
  | nil => simp [breaks]
  | cons c a ih => simp only [List.cons_append, breaks, ih]; omega

theorem breaks_le (a : List Char) : breaks a ≤ a.length := by
  induction a with
  | nil => simp [breaks]
  | cons c a ih => simp only [breaks, List.length_cons]; split <;> omega

theorem pad_breaks : ∀ (b : Bool) (cs : List Char), breaks (pad b cs) = breaks cs
  | true, [] | false, [] => rfl
  | true, c :: cs => by simp [pad, breaks, pad_breaks]
  | false, c :: cs => by simp [pad, breaks, pad_breaks]

/-- starts of lines in a text that ends with a line break -/
theorem pad_length : ∀ (b : Bool) (cs : List Char),
    (pad b (cs ++ ['\n'])).length = cs.length + 1 + 4 * (breaks cs + if b then 1 else 0)
  | true, [] | false, [] => rfl
  | true, c :: cs => by
    have h := pad_length (c == '\n') cs
    simp only [List.cons_append, pad, List.length_cons, breaks, h]
    by_cases hc : c = '\n' <;> simp [hc] <;> omega
  | false, c :: cs => by
    have h := pad_length (c == '\n') cs
    simp only [List.cons_append, pad, List.length_cons, breaks, h]
    by_cases hc : c = '\n' <;> simp [hc] <;> omega

/-- a part of a value, on its own lines -/
theorem part_length (l : List Char) : (pad true (l ++ [',', '\n'])).length = l.length + 6 + 4 * breaks l := by
  rw [show l ++ [',', '\n'] = (l ++ [',']) ++ ['\n'] by simp, pad_length, breaks_append]
  simp [breaks]; omega
theorem part_breaks (l : List Char) : breaks (pad true (l ++ [',', '\n'])) = breaks l + 1 := by
  rw [pad_breaks, breaks_append]; simp [breaks]

/-- one part takes its ink, a comma and a line break, one level deeper -/
theorem part_le {l b i t T : Nat} (h1 : l ≤ i * (1 + 4 * t)) (h2 : b ≤ i) (ht : t + 1 ≤ T) :
    l + 6 + 4 * b ≤ (i + 2) * (1 + 4 * T) := by
  have h : (i + 2) * (1 + 4 * (t + 1)) ≤ (i + 2) * (1 + 4 * T) := Nat.mul_le_mul_left _ (by omega)
  have e : (i + 2) * (1 + 4 * (t + 1)) = i * (1 + 4 * t) + 4 * i + 2 * (1 + 4 * t) + 8 := by
    simp only [Nat.add_mul, Nat.mul_add, Nat.one_mul, Nat.mul_one]; omega
  omega

theorem scale_le {i t T : Nat} (h : t ≤ T) : i * (1 + 4 * t) ≤ i * (1 + 4 * T) := Nat.mul_le_mul_left _ (by omega)

mutual
theorem pretty_length : ∀ d : Dbg, d.pretty.length ≤ d.ink * (1 + 4 * d.tall) ∧ breaks d.pretty ≤ d.ink
  | .word s => ⟨by simp [Dbg.pretty, Dbg.ink, Dbg.tall], breaks_le _⟩
  | .str s => ⟨by simp [Dbg.pretty, Dbg.ink, Dbg.tall], by
      have := breaks_le ('"' :: (s.toList ++ ['"']))
      simp only [Dbg.pretty, Dbg.ink]; simp at this ⊢; omega⟩
  | .unit => ⟨by decide, by decide⟩
  | .tuple n [] => ⟨by simp [Dbg.pretty, Dbg.ink, Dbg.tall, inkItems, tallItems], by
      have := breaks_le n.toList
      simp [Dbg.pretty, Dbg.ink, inkItems]; omega⟩
  | .tuple n (f :: fs) => by
    obtain ⟨h1, h2⟩ := items_length (f :: fs)
    have hn := breaks_le n.toList
    have key : (Dbg.tuple n (f :: fs)).pretty = n.toList ++ ('(' :: '\n' :: (prettyItems (f :: fs) ++ [')'])) := by
      simp [Dbg.pretty, prettyItems]
    rw [key]
    simp only [Dbg.ink, Dbg.tall, List.length_append, List.length_cons, List.length_nil, breaks_append, breaks,
      Char.reduceEq, if_false, if_true]
    refine ⟨?_, by omega⟩
    rw [Nat.add_mul]
    have := Nat.le_mul_of_pos_right (n.toList.length + 3) (show 0 < 1 + 4 * tallItems (f :: fs) by omega)
    omega
  | .struct n [] => ⟨by simp [Dbg.pretty, Dbg.ink, Dbg.tall, inkFields, tallFields], by
      have := breaks_le n.toList
      simp [Dbg.pretty, Dbg.ink, inkFields]; omega⟩
  | .struct n ((k, f) :: fs) => by
    obtain ⟨h1, h2⟩ := fields_length ((k, f) :: fs)
    have hn := breaks_le n.toList
    have key : (Dbg.struct n ((k, f) :: fs)).pretty =
        n.toList ++ (' ' :: '{' :: '\n' :: (prettyFields ((k, f) :: fs) ++ ['}'])) := by
      simp [Dbg.pretty, prettyFields]
    rw [key]
    simp only [Dbg.ink, Dbg.tall, List.length_append, List.length_cons, List.length_nil, breaks_append, breaks,
      Char.reduceEq, if_false, if_true]
    refine ⟨?_, by omega⟩
    rw [Nat.add_mul]
    have := Nat.le_mul_of_pos_right (n.toList.length + 5) (show 0 < 1 + 4 * tallFields ((k, f) :: fs) by omega)
    omega
  | .list [] => ⟨by decide, by decide⟩
  | .list (f :: fs) => by
    obtain ⟨h1, h2⟩ := items_length (f :: fs)
    have key : (Dbg.list (f :: fs)).pretty = '[' :: '\n' :: (prettyItems (f :: fs) ++ [']']) := by
      simp [Dbg.pretty, prettyItems]
    rw [key]
    simp only [Dbg.ink, Dbg.tall, List.length_append, List.length_cons, List.length_nil, breaks_append, breaks,
      Char.reduceEq, if_false, if_true]
    refine ⟨?_, by omega⟩
    rw [Nat.add_mul]
    omega
  | .path n d => by
    obtain ⟨h1, h2⟩ := pretty_length d
    have hn := breaks_le n.toList
    simp only [Dbg.pretty, Dbg.ink, Dbg.tall, List.length_append, List.length_cons, breaks_append, breaks,
      Char.reduceEq, if_false]
    refine ⟨?_, by omega⟩
    rw [Nat.add_mul]
    have := Nat.le_mul_of_pos_right (n.toList.length + 2) (show 0 < 1 + 4 * d.tall by omega)
    omega
theorem items_length : ∀ ds : List Dbg, (prettyItems ds).length ≤ inkItems ds * (1 + 4 * tallItems ds) ∧
    breaks (prettyItems ds) ≤ inkItems ds
  | [] => ⟨by simp [prettyItems], by simp [prettyItems, breaks]⟩
  | f :: fs => by
    obtain ⟨h1, h2⟩ := pretty_length f
    obtain ⟨h3, h4⟩ := items_length fs
    simp only [prettyItems, List.length_append, part_length, breaks_append, part_breaks, inkItems, tallItems]
    refine ⟨?_, by omega⟩
    rw [Nat.add_mul]
    have := part_le h1 h2 (Nat.le_max_left (f.tall + 1) (tallItems fs))
    have := scale_le (i := inkItems fs) (Nat.le_max_right (f.tall + 1) (tallItems fs))
    omega
theorem fields_length : ∀ ds : List (String × Dbg), (prettyFields ds).length ≤ inkFields ds * (1 + 4 * tallFields ds) ∧
    breaks (prettyFields ds) ≤ inkFields ds
  | [] => ⟨by simp [prettyFields], by simp [prettyFields, breaks]⟩
  | (k, f) :: fs => by
    obtain ⟨h1, h2⟩ := pretty_length f
    obtain ⟨h3, h4⟩ := fields_length fs
    have hk := breaks_le k.toList
    have key : k.toList ++ ':' :: ' ' :: (f.pretty ++ [',', '\n']) = (k.toList ++ ':' :: ' ' :: f.pretty) ++ [',', '\n'] := by simp
    simp only [prettyFields, key, List.length_append, part_length, breaks_append, part_breaks, inkFields, tallFields,
      List.length_cons, breaks, Char.reduceEq, if_false]
    refine ⟨?_, by omega⟩
    have e : k.toList.length + 4 + f.ink + inkFields fs = (k.toList.length + 2 + f.ink + 2) + inkFields fs := by omega
    rw [e, Nat.add_mul]
    have h1' : k.toList.length + (f.pretty.length + 1 + 1) ≤ (k.toList.length + 2 + f.ink) * (1 + 4 * f.tall) := by
      rw [Nat.add_mul]
      have := Nat.le_mul_of_pos_right (k.toList.length + 2) (show 0 < 1 + 4 * f.tall by omega)
      omega
    have := part_le h1' (b := breaks k.toList + (0 + (0 + breaks f.pretty))) (by omega)
      (Nat.le_max_left (f.tall + 1) (tallFields fs))
    have := scale_le (i := inkFields fs) (Nat.le_max_right (f.tall + 1) (tallFields fs))
    omega
end

mutual
theorem compact_length : ∀ d : Dbg, d.Pathless → d.compact.length ≤ d.ink
  | .word s, _ => by simp [Dbg.compact, Dbg.ink]
  | .str s, _ => by simp [Dbg.compact, Dbg.ink]
  | .unit, _ => by decide
  | .tuple n [], _ => by simp [Dbg.compact, Dbg.ink]; omega
  | .tuple n (f :: fs), h => by
    have h1 := compact_length f h.1
    have h2 := compactItems_length fs h.2
    simp only [Dbg.compact, Dbg.ink, inkItems, List.length_append, List.length_cons, List.length_nil]; omega
  | .struct n [], _ => by simp [Dbg.compact, Dbg.ink]; omega
  | .struct n ((k, f) :: fs), h => by
    have h1 := compact_length f h.1
    have h2 := compactFields_length fs h.2
    simp only [Dbg.compact, Dbg.ink, inkFields, List.length_append, List.length_cons, List.length_nil]; omega
  | .list [], _ => by decide
  | .list (f :: fs), h => by
    have h1 := compact_length f h.1
    have h2 := compactItems_length fs h.2
    simp only [Dbg.compact, Dbg.ink, inkItems, List.length_append, List.length_cons, List.length_nil]; omega
  | .path n d, h => h.elim
theorem compactItems_length : ∀ ds : List Dbg, pathlessItems ds → (compactItems ds).length ≤ inkItems ds
  | [], _ => by simp [compactItems]
  | f :: fs, h => by
    have h1 := compact_length f h.1
    have h2 := compactItems_length fs h.2
    simp only [compactItems, inkItems, List.length_append, List.length_cons]; omega
theorem compactFields_length : ∀ ds : List (String × Dbg), pathlessFields ds → (compactFields ds).length ≤ inkFields ds
  | [], _ => by simp [compactFields]
  | (k, f) :: fs, h => by
    have h1 := compact_length f h.1
    have h2 := compactFields_length fs h.2
    simp only [compactFields, inkFields, List.length_append, List.length_cons]; omega
end

end Wadec
