import Verif.Spec.Debug
import Verif.Proof.Utf8

/-! The layout of `{:#?}` can be read back: texts determine trees. -/

namespace Wadec

/-! ### Without indentation -/

/-- Drops the spaces at the start of lines; the flag says whether a line starts here. -/
def strip : Bool → List Char → List Char
  | _, [] => []
  | b, c :: cs => if b = true ∧ c = ' ' then strip true cs else c :: strip (c == '\n') cs

mutual
/-- The layout without indentation. -/
def Dbg.flat : Dbg → List Char
  | .word s => s.toList
  | .str s => '"' :: (s.toList ++ ['"'])
  | .unit => ['(', ')']
  | .tuple n fs => n.toList ++ '(' :: '\n' :: (flatItems fs ++ [')'])
  | .struct n fs => n.toList ++ ' ' :: '{' :: '\n' :: (flatFields fs ++ ['}'])
  | .list [] => ['[', ']']
  | .list (x :: xs) => '[' :: '\n' :: (x.flat ++ ',' :: '\n' :: (flatItems xs ++ [']']))
  | .path n d => n.toList ++ ':' :: ':' :: d.flat
def flatItems : List Dbg → List Char
  | [] => []
  | f :: fs => f.flat ++ ',' :: '\n' :: flatItems fs
def flatFields : List (String × Dbg) → List Char
  | [] => []
  | (k, f) :: fs => k.toList ++ ':' :: ' ' :: (f.flat ++ ',' :: '\n' :: flatFields fs)
end

theorem strip_pad (xs rest : List Char) : ∀ b b', (b' = true → b = true) →
    strip b (pad b' xs ++ rest) = strip b (xs ++ rest) := by
  induction xs with
  | nil => intro b b' _; cases b' <;> rfl
  | cons c cs ih =>
    have key : ∀ b b', (b' = true → b = true) →
        strip b (c :: (pad (c == '\n') cs ++ rest)) = strip b (c :: (cs ++ rest)) := by
      intro b b' hb
      by_cases h : b = true ∧ c = ' '
      · obtain ⟨rfl, rfl⟩ := h
        have e : ((' ' : Char) == '\n') = false := by decide
        rw [e]
        simp only [strip, and_self, if_true]
        exact ih true false (by simp)
      · simp only [strip, h, if_false]
        rw [ih _ _ (fun h => h)]
    intro b b' hb
    cases b' with
    | false => simp only [pad, List.cons_append]; exact key b false hb
    | true =>
      cases hb rfl
      simp only [pad, List.cons_append]
      rw [show ∀ l, strip true (' ' :: ' ' :: ' ' :: ' ' :: l) = strip true l from fun l => by simp [strip]]
      exact key true true (fun h => h)

/-- Text without line breaks that does not start with a space is kept. -/
theorem strip_line : ∀ (xs rest : List Char), '\n' ∉ xs → strip false (xs ++ rest) = xs ++ strip false rest
  | [], _, _ => rfl
  | c :: cs, rest, h => by
    simp only [List.mem_cons, not_or] at h
    have e : (c == '\n') = false := by simp; exact fun h' => h.1 h'.symm
    simp only [List.cons_append, strip, Bool.false_eq_true, false_and, if_false, e]
    rw [strip_line cs rest h.2]

theorem strip_word {s : String} (h : isWord s = true) (b : Bool) (rest : List Char) :
    strip b (s.toList ++ rest) = s.toList ++ strip false rest := by
  unfold isWord at h
  generalize s.toList = l at h ⊢
  have hn : '\n' ∉ l := by
    intro hm
    have := (Bool.and_eq_true _ _ ▸ h).2
    rw [List.all_eq_true] at this
    exact absurd (this _ hm) (by decide)
  cases l with
  | nil => simp at h
  | cons c cs =>
    have hc : wordChar c = true := by
      simp only [List.isEmpty_cons, Bool.not_false, List.all_cons, Bool.true_and, Bool.and_eq_true] at h
      exact h.1
    have hs : c ≠ ' ' := by rintro rfl; exact absurd hc (by decide)
    have hc' : (c == '\n') = false := by
      simp only [List.mem_cons, not_or] at hn
      simp; exact fun h' => hn.1 h'.symm
    simp only [List.cons_append, strip, hs, and_false, if_false, hc']
    rw [strip_line cs rest (fun h => hn (List.mem_cons_of_mem _ h))]

theorem closed_line : ∀ {l : List Char}, closed l = true → '\n' ∉ l
  | [], _ => by simp
  | [c], h => by
    unfold closed at h
    split at h
    · simp_all
    · simp_all
    · rename_i h'
      cases h'
      simp only [Bool.and_eq_true, bne_iff_ne, ne_eq] at h
      exact fun hm => (List.mem_cons.1 hm).elim (fun e => h.1.2 e.symm) (by simp)
  | c :: d :: cs, h => by
    unfold closed at h
    split at h
    · simp_all
    · rename_i h'
      cases h'
      simp only [Bool.and_eq_true, bne_iff_ne, ne_eq] at h
      have := closed_line h.2
      simp only [List.mem_cons, not_or]
      exact ⟨by decide, fun e => h.1 e.symm, this⟩
    · rename_i h'
      cases h'
      simp only [Bool.and_eq_true, bne_iff_ne, ne_eq] at h
      exact fun hm => (List.mem_cons.1 hm).elim (fun e => h.1.2 e.symm) (closed_line h.2)

theorem strip_cons {c : Char} (hs : c ≠ ' ') (hn : c ≠ '\n') (b : Bool) (rest : List Char) :
    strip b (c :: rest) = c :: strip false rest := by
  have : (c == '\n') = false := by simp [hn]
  simp [strip, hs, this]

theorem strip_sp (rest : List Char) : strip false (' ' :: rest) = ' ' :: strip false rest := by
  simp [strip]

theorem strip_nl (b : Bool) (rest : List Char) : strip b ('\n' :: rest) = '\n' :: strip true rest := by
  simp [strip]

mutual
theorem strip_pretty : ∀ (d : Dbg) (b : Bool) (rest : List Char), d.Ok →
    strip b (d.pretty ++ rest) = d.flat ++ strip false rest
  | .word s, b, rest, h => by
    unfold Dbg.Ok at h
    unfold Dbg.pretty Dbg.flat
    exact strip_word h b rest
  | .str s, b, rest, h => by
    unfold Dbg.Ok at h
    unfold Dbg.pretty Dbg.flat
    simp only [List.cons_append, List.append_assoc]
    rw [strip_cons (by decide) (by decide), strip_line _ _ (closed_line h)]
    simp only [List.nil_append]
    rw [strip_cons (by decide) (by decide)]
  | .unit, b, rest, h => by
    unfold Dbg.pretty Dbg.flat
    simp only [List.cons_append, List.nil_append]
    rw [strip_cons (by decide) (by decide), strip_cons (by decide) (by decide)]
  | .tuple n [], b, rest, h => by unfold Dbg.Ok at h; exact absurd rfl h.2.1
  | .tuple n (f :: fs), b, rest, h => by
    unfold Dbg.Ok at h
    unfold okItems at h
    unfold Dbg.pretty Dbg.flat flatItems
    simp only [List.cons_append, List.append_assoc]
    rw [strip_word h.1, strip_cons (by decide) (by decide), strip_nl, strip_pad _ _ _ _ (fun h => h), List.append_assoc,
      strip_pretty f _ _ h.2.2.1]
    simp only [List.cons_append, List.nil_append]
    rw [strip_cons (by decide) (by decide), strip_nl, strip_items fs _ h.2.2.2, strip_cons (by decide) (by decide)]
  | .struct n [], b, rest, h => by unfold Dbg.Ok at h; exact absurd rfl h.2.1
  | .struct n ((k, f) :: fs), b, rest, h => by
    unfold Dbg.Ok at h
    unfold okFields at h
    unfold Dbg.pretty Dbg.flat flatFields
    simp only [List.cons_append, List.append_assoc]
    rw [strip_word h.1, strip_sp, strip_cons (by decide) (by decide), strip_nl, strip_pad _ _ _ _ (fun h => h)]
    simp only [List.cons_append, List.append_assoc]
    rw [strip_word h.2.2.1, strip_cons (by decide) (by decide), strip_sp, strip_pretty f _ _ h.2.2.2.1]
    simp only [List.cons_append, List.nil_append]
    rw [strip_cons (by decide) (by decide), strip_nl, strip_fields fs _ h.2.2.2.2, strip_cons (by decide) (by decide)]
  | .list [], b, rest, h => by
    unfold Dbg.pretty Dbg.flat
    simp only [List.cons_append, List.nil_append]
    rw [strip_cons (by decide) (by decide), strip_cons (by decide) (by decide)]
  | .list (x :: xs), b, rest, h => by
    unfold Dbg.Ok at h
    unfold okItems at h
    unfold Dbg.pretty Dbg.flat
    simp only [List.cons_append, List.append_assoc]
    rw [strip_cons (by decide) (by decide), strip_nl, strip_pad _ _ _ _ (fun h => h), List.append_assoc,
      strip_pretty x _ _ h.1]
    simp only [List.cons_append, List.nil_append]
    rw [strip_cons (by decide) (by decide), strip_nl, strip_items xs _ h.2, strip_cons (by decide) (by decide)]
  | .path n d, b, rest, h => by
    unfold Dbg.Ok at h
    unfold Dbg.pretty Dbg.flat
    simp only [List.cons_append, List.append_assoc]
    rw [strip_word h.1, strip_cons (by decide) (by decide), strip_cons (by decide) (by decide), strip_pretty d _ _ h.2]
theorem strip_items : ∀ (fs : List Dbg) (rest : List Char), okItems fs →
    strip true (prettyItems fs ++ rest) = flatItems fs ++ strip true rest
  | [], _, _ => by unfold prettyItems flatItems; rfl
  | f :: fs, rest, h => by
    unfold okItems at h
    unfold prettyItems flatItems
    simp only [List.append_assoc]
    rw [strip_pad _ _ _ _ (fun h => h), List.append_assoc, strip_pretty f _ _ h.1]
    simp only [List.cons_append, List.nil_append]
    rw [strip_cons (by decide) (by decide), strip_nl, strip_items fs _ h.2]
theorem strip_fields : ∀ (fs : List (String × Dbg)) (rest : List Char), okFields fs →
    strip true (prettyFields fs ++ rest) = flatFields fs ++ strip true rest
  | [], _, _ => by unfold prettyFields flatFields; rfl
  | (k, f) :: fs, rest, h => by
    unfold okFields at h
    unfold prettyFields flatFields
    simp only [List.append_assoc, List.cons_append]
    rw [strip_pad _ _ _ _ (fun h => h)]
    simp only [List.append_assoc, List.cons_append]
    rw [strip_word h.1, strip_cons (by decide) (by decide), strip_sp, strip_pretty f _ _ h.2.1]
    simp only [List.cons_append, List.nil_append]
    rw [strip_cons (by decide) (by decide), strip_nl, strip_fields fs _ h.2.2]
end

/-! ### Reading it back -/

/-- What may follow a value: nothing, or the comma or bracket behind it. -/
def Term : List Char → Bool
  | [] => true
  | [c] => c == ',' || c == ')' || c == ']'
  | c :: d :: _ => c == ',' || c == ')' || c == ']' || (c == ' ' && d == '}')

/-- A text that does not go on with a name or a number. -/
def Sep : List Char → Bool
  | [] => true
  | c :: _ => !wordChar c

theorem sep_of_term {x : List Char} (h : Term x = true) : Sep x = true := by
  cases x with
  | nil => rfl
  | cons c x =>
    have : c = ',' ∨ c = ')' ∨ c = ']' ∨ c = ' ' := by
      cases x <;> simp [Term] at h <;> grind
    rcases this with rfl | rfl | rfl | rfl <;> rfl

theorem words_split : ∀ {l1 l2 x y : List Char}, l1.all wordChar = true → l2.all wordChar = true →
    Sep x = true → Sep y = true → l1 ++ x = l2 ++ y → l1 = l2 ∧ x = y
  | [], [], x, y, _, _, _, _, h => ⟨rfl, h⟩
  | [], c :: l2, x, y, _, h2, hx, _, h => by
    simp only [List.nil_append, List.cons_append] at h
    subst h
    simp only [List.all_cons, Bool.and_eq_true] at h2
    simp [Sep, h2.1] at hx
  | c :: l1, [], x, y, h1, _, _, hy, h => by
    simp only [List.nil_append, List.cons_append] at h
    subst h
    simp only [List.all_cons, Bool.and_eq_true] at h1
    simp [Sep, h1.1] at hy
  | c :: l1, d :: l2, x, y, h1, h2, hx, hy, h => by
    simp only [List.cons_append, List.cons.injEq] at h
    simp only [List.all_cons, Bool.and_eq_true] at h1 h2
    obtain ⟨e1, e2⟩ := words_split h1.2 h2.2 hx hy h.2
    exact ⟨by rw [h.1, e1], e2⟩

theorem closed_split : ∀ {l1 l2 x y : List Char}, closed l1 = true → closed l2 = true →
    l1 ++ '"' :: x = l2 ++ '"' :: y → l1 = l2 ∧ x = y := by
  intro l1
  induction l1 using closed.induct with
  | case1 =>
    intro l2 x y _ h2 h
    cases l2 with
    | nil => simpa using h
    | cons c l2 =>
      simp only [List.nil_append, List.cons_append, List.cons.injEq] at h
      obtain ⟨rfl, _⟩ := h
      unfold closed at h2
      simp at h2
  | case2 c cs ih =>
    intro l2 x y h1 h2 h
    have h1' : closed cs = true := by
      rw [closed] at h1
      exact (Bool.and_eq_true _ _ ▸ h1).2
    cases l2 with
    | nil => simp at h
    | cons d l2 =>
      simp only [List.cons_append, List.cons.injEq] at h
      obtain ⟨rfl, h⟩ := h
      cases l2 with
      | nil => unfold closed at h2; simp at h2
      | cons e l2 =>
        have h2' : closed l2 = true := by
          rw [closed] at h2
          exact (Bool.and_eq_true _ _ ▸ h2).2
        simp only [List.cons_append, List.cons.injEq] at h
        obtain ⟨rfl, h⟩ := h
        obtain ⟨rfl, e2⟩ := ih h1' h2' h
        exact ⟨rfl, e2⟩
  | case3 c cs hne ih =>
    intro l2 x y h1 h2 h
    rw [closed] at h1
    · simp only [Bool.and_eq_true, bne_iff_ne, ne_eq] at h1
      cases l2 with
      | nil =>
        simp only [List.nil_append, List.cons_append, List.cons.injEq] at h
        exact absurd h.1 h1.1.1.2
      | cons d l2 =>
        simp only [List.cons_append, List.cons.injEq] at h
        obtain ⟨rfl, h⟩ := h
        have h2' : closed l2 = true := by
          rw [closed] at h2
          · exact (Bool.and_eq_true _ _ ▸ h2).2
          · intro c' cs' e; exact absurd e h1.1.1.1
        obtain ⟨rfl, e2⟩ := ih h1.2 h2' h
        exact ⟨rfl, e2⟩
    · intro c' cs' e e'; exact hne c' cs' e e'

/-- The name at the start of the text of a tree. -/
def Dbg.head : Dbg → String
  | .word s => s
  | .tuple n _ => n
  | .struct n _ => n
  | .path n _ => n
  | _ => ""

/-- The text behind it. -/
def Dbg.tail : Dbg → List Char
  | .word _ => []
  | .str s => '"' :: (s.toList ++ ['"'])
  | .unit => ['(', ')']
  | .tuple _ fs => '(' :: '\n' :: (flatItems fs ++ [')'])
  | .struct _ fs => ' ' :: '{' :: '\n' :: (flatFields fs ++ ['}'])
  | .list [] => ['[', ']']
  | .list (x :: xs) => '[' :: '\n' :: (x.flat ++ ',' :: '\n' :: (flatItems xs ++ [']']))
  | .path _ d => ':' :: ':' :: d.flat

theorem flat_head_tail (d : Dbg) : d.flat = d.head.toList ++ d.tail := by
  cases d with
  | list xs => cases xs <;> simp [Dbg.flat, Dbg.head, Dbg.tail]
  | _ => simp [Dbg.flat, Dbg.head, Dbg.tail]

theorem isWord_all {s : String} (h : isWord s = true) : s.toList.all wordChar = true :=
  (Bool.and_eq_true _ _ ▸ h).2

theorem head_all {d : Dbg} (h : d.Ok) : d.head.toList.all wordChar = true := by
  cases d <;> unfold Dbg.Ok at h <;> unfold Dbg.head
  case word => exact isWord_all h
  case tuple => exact isWord_all h.1
  case struct => exact isWord_all h.1
  case path => exact isWord_all h.1
  all_goals rfl

theorem tail_sep (d : Dbg) {x : List Char} (h : Term x = true) : Sep (d.tail ++ x) = true := by
  cases d with
  | word => exact sep_of_term h
  | list xs => cases xs <;> rfl
  | _ => rfl

theorem flat_start {d : Dbg} (h : d.Ok) : ∃ c t, d.flat = c :: t ∧ c ≠ ')' ∧ c ≠ ']' ∧ c ≠ '}' := by
  have word : ∀ {s : String} {t : List Char}, isWord s = true →
      ∃ c u, s.toList ++ t = c :: u ∧ c ≠ ')' ∧ c ≠ ']' ∧ c ≠ '}' := by
    intro s t hs
    unfold isWord at hs
    cases e : s.toList with
    | nil => rw [e] at hs; cases hs
    | cons c u =>
      rw [e] at hs
      simp only [List.isEmpty_cons, Bool.not_false, List.all_cons, Bool.true_and, Bool.and_eq_true] at hs
      refine ⟨c, u ++ t, rfl, ?_, ?_, ?_⟩ <;> (rintro rfl; exact absurd hs.1 (by decide))
  rw [flat_head_tail]
  cases d with
  | word s => unfold Dbg.Ok at h; exact word h
  | tuple => unfold Dbg.Ok at h; exact word h.1
  | struct => unfold Dbg.Ok at h; exact word h.1
  | path => unfold Dbg.Ok at h; exact word h.1
  | str => exact ⟨_, _, rfl, by decide, by decide, by decide⟩
  | unit => exact ⟨_, _, rfl, by decide, by decide, by decide⟩
  | list xs => cases xs <;> exact ⟨_, _, rfl, by decide, by decide, by decide⟩

/-- A closing bracket. -/
def Close : List Char → Bool
  | [] => false
  | c :: _ => c == ')' || c == ']' || c == '}'

theorem flat_split {a b : Dbg} {x y : List Char} (ha : a.Ok) (hb : b.Ok) (hx : Term x = true) (hy : Term y = true)
    (h : a.flat ++ x = b.flat ++ y) : a.head = b.head ∧ a.tail ++ x = b.tail ++ y := by
  rw [flat_head_tail a, flat_head_tail b, List.append_assoc, List.append_assoc] at h
  obtain ⟨e1, e2⟩ := words_split (head_all ha) (head_all hb) (tail_sep a hx) (tail_sep b hy) h
  exact ⟨String.toList_inj.1 e1, e2⟩

theorem isWord_ne {s : String} (h : isWord s = true) : s ≠ "" := by rintro rfl; cases h

theorem not_term1 {l : List Char} : Term ('(' :: l) = false ∧ Term ('"' :: l) = false ∧ Term ('[' :: l) = false ∧
    Term (':' :: l) = false ∧ Term (' ' :: '{' :: l) = false := by
  refine ⟨?_, ?_, ?_, ?_, ?_⟩ <;> cases l <;> rfl

mutual
theorem flat_inj : ∀ (a b : Dbg) (x y : List Char), a.Ok → b.Ok → Term x = true → Term y = true →
    a.flat ++ x = b.flat ++ y → a = b ∧ x = y
  | .word s, b, x, y, ha, hb, hx, hy, h => by
    obtain ⟨e1, e2⟩ := flat_split ha hb hx hy h
    unfold Dbg.Ok at ha
    cases b with
    | word t => exact ⟨congrArg _ e1, e2⟩
    | str => exact absurd e1 (isWord_ne ha)
    | unit => exact absurd e1 (isWord_ne ha)
    | list => exact absurd e1 (isWord_ne ha)
    | tuple => simp only [Dbg.tail, List.nil_append] at e2; subst e2; simp [not_term1] at hx
    | struct => simp only [Dbg.tail, List.nil_append] at e2; subst e2; simp [not_term1] at hx
    | path => simp only [Dbg.tail, List.nil_append] at e2; subst e2; simp [not_term1] at hx
  | .str s, b, x, y, ha, hb, hx, hy, h => by
    obtain ⟨e1, e2⟩ := flat_split ha hb hx hy h
    cases b with
    | str t =>
      unfold Dbg.Ok at ha hb
      simp only [Dbg.tail, List.cons_append, List.cons.injEq, true_and, List.append_assoc, List.nil_append] at e2
      obtain ⟨e3, e4⟩ := closed_split ha hb e2
      exact ⟨congrArg _ (String.toList_inj.1 e3), e4⟩
    | list xs => cases xs <;> simp [Dbg.tail] at e2
    | unit => simp [Dbg.tail] at e2
    | word => unfold Dbg.Ok at hb; exact absurd e1.symm (isWord_ne hb)
    | _ => unfold Dbg.Ok at hb; exact absurd e1.symm (isWord_ne hb.1)
  | .unit, b, x, y, ha, hb, hx, hy, h => by
    obtain ⟨e1, e2⟩ := flat_split ha hb hx hy h
    cases b with
    | unit => exact ⟨rfl, by simpa [Dbg.tail] using e2⟩
    | str => simp [Dbg.tail] at e2
    | list xs => cases xs <;> simp [Dbg.tail] at e2
    | word => unfold Dbg.Ok at hb; exact absurd e1.symm (isWord_ne hb)
    | _ => unfold Dbg.Ok at hb; exact absurd e1.symm (isWord_ne hb.1)
  | .tuple n fs, b, x, y, ha, hb, hx, hy, h => by
    obtain ⟨e1, e2⟩ := flat_split ha hb hx hy h
    unfold Dbg.Ok at ha
    cases b with
    | tuple m gs =>
      unfold Dbg.Ok at hb
      simp only [Dbg.tail, List.cons_append, List.cons.injEq, true_and, List.append_assoc, List.nil_append] at e2
      obtain ⟨e3, e4⟩ := items_inj fs gs (')' :: x) (')' :: y) ha.2.2 hb.2.2 rfl rfl e2
      simp only [List.cons.injEq, true_and] at e4
      cases e1
      exact ⟨by rw [e3], e4⟩
    | word => simp only [Dbg.tail, List.nil_append] at e2; subst e2; simp [not_term1] at hy
    | struct => simp [Dbg.tail] at e2
    | path => simp [Dbg.tail] at e2
    | _ => exact absurd e1 (isWord_ne ha.1)
  | .struct n fs, b, x, y, ha, hb, hx, hy, h => by
    obtain ⟨e1, e2⟩ := flat_split ha hb hx hy h
    unfold Dbg.Ok at ha
    cases b with
    | struct m gs =>
      unfold Dbg.Ok at hb
      simp only [Dbg.tail, List.cons_append, List.cons.injEq, true_and, List.append_assoc, List.nil_append] at e2
      obtain ⟨e3, e4⟩ := fields_inj fs gs ('}' :: x) ('}' :: y) ha.2.2 hb.2.2 rfl rfl e2
      simp only [List.cons.injEq, true_and] at e4
      cases e1
      exact ⟨by rw [e3], e4⟩
    | word => simp only [Dbg.tail, List.nil_append] at e2; subst e2; simp [not_term1] at hy
    | tuple => simp [Dbg.tail] at e2
    | path => simp [Dbg.tail] at e2
    | _ => exact absurd e1 (isWord_ne ha.1)
  | .list [], b, x, y, ha, hb, hx, hy, h => by
    obtain ⟨e1, e2⟩ := flat_split ha hb hx hy h
    cases b with
    | list gs =>
      cases gs with
      | nil => exact ⟨rfl, by simpa [Dbg.tail] using e2⟩
      | cons => simp [Dbg.tail] at e2
    | str => simp [Dbg.tail] at e2
    | unit => simp [Dbg.tail] at e2
    | word => unfold Dbg.Ok at hb; exact absurd e1.symm (isWord_ne hb)
    | _ => unfold Dbg.Ok at hb; exact absurd e1.symm (isWord_ne hb.1)
  | .list (f :: fs), b, x, y, ha, hb, hx, hy, h => by
    obtain ⟨e1, e2⟩ := flat_split ha hb hx hy h
    unfold Dbg.Ok at ha
    cases b with
    | list gs =>
      cases gs with
      | nil => simp [Dbg.tail] at e2
      | cons g gs =>
        unfold Dbg.Ok at hb
        unfold okItems at ha hb
        simp only [Dbg.tail, List.cons_append, List.cons.injEq, true_and, List.append_assoc, List.nil_append] at e2
        obtain ⟨e3, e4⟩ := flat_inj f g _ _ ha.1 hb.1 rfl rfl e2
        simp only [List.cons.injEq, true_and] at e4
        obtain ⟨e5, e6⟩ := items_inj fs gs (']' :: x) (']' :: y) ha.2 hb.2 rfl rfl e4
        simp only [List.cons.injEq, true_and] at e6
        exact ⟨by rw [e3, e5], e6⟩
    | str => simp [Dbg.tail] at e2
    | unit => simp [Dbg.tail] at e2
    | word => unfold Dbg.Ok at hb; exact absurd e1.symm (isWord_ne hb)
    | _ => unfold Dbg.Ok at hb; exact absurd e1.symm (isWord_ne hb.1)
  | .path n d, b, x, y, ha, hb, hx, hy, h => by
    obtain ⟨e1, e2⟩ := flat_split ha hb hx hy h
    unfold Dbg.Ok at ha
    cases b with
    | path m g =>
      unfold Dbg.Ok at hb
      simp only [Dbg.tail, List.cons_append, List.cons.injEq, true_and] at e2
      obtain ⟨e3, e4⟩ := flat_inj d g x y ha.2 hb.2 hx hy e2
      cases e1
      exact ⟨by rw [e3], e4⟩
    | word => simp only [Dbg.tail, List.nil_append] at e2; subst e2; simp [not_term1] at hy
    | tuple => simp [Dbg.tail] at e2
    | struct => simp [Dbg.tail] at e2
    | _ => exact absurd e1 (isWord_ne ha.1)
theorem items_inj : ∀ (fs gs : List Dbg) (x y : List Char), okItems fs → okItems gs → Close x = true →
    Close y = true → flatItems fs ++ x = flatItems gs ++ y → fs = gs ∧ x = y
  | [], [], x, y, _, _, _, _, h => ⟨rfl, by simpa [flatItems] using h⟩
  | [], g :: gs, x, y, _, hg, hx, _, h => by
    unfold okItems at hg
    obtain ⟨c, t, e, hc⟩ := flat_start hg.1
    simp only [flatItems, List.nil_append, e, List.cons_append] at h
    subst h
    simp [Close, hc.1, hc.2.1, hc.2.2] at hx
  | f :: fs, [], x, y, hf, _, _, hy, h => by
    unfold okItems at hf
    obtain ⟨c, t, e, hc⟩ := flat_start hf.1
    simp only [flatItems, List.nil_append, e, List.cons_append] at h
    subst h
    simp [Close, hc.1, hc.2.1, hc.2.2] at hy
  | f :: fs, g :: gs, x, y, hf, hg, hx, hy, h => by
    unfold okItems at hf hg
    simp only [flatItems, List.cons_append, List.append_assoc] at h
    obtain ⟨e1, e2⟩ := flat_inj f g _ _ hf.1 hg.1 rfl rfl h
    simp only [List.cons.injEq, true_and] at e2
    obtain ⟨e3, e4⟩ := items_inj fs gs x y hf.2 hg.2 hx hy e2
    exact ⟨by rw [e1, e3], e4⟩
theorem fields_inj : ∀ (fs gs : List (String × Dbg)) (x y : List Char), okFields fs → okFields gs →
    Close x = true → Close y = true → flatFields fs ++ x = flatFields gs ++ y → fs = gs ∧ x = y
  | [], [], x, y, _, _, _, _, h => ⟨rfl, by simpa [flatFields] using h⟩
  | [], (k, g) :: gs, x, y, _, hg, hx, _, h => by
    unfold okFields at hg
    obtain ⟨c, t, e, hc⟩ := flat_start (d := .word k) (by unfold Dbg.Ok; exact hg.1)
    unfold Dbg.flat at e
    simp only [flatFields, List.nil_append, e, List.cons_append] at h
    subst h
    simp [Close, hc.1, hc.2.1, hc.2.2] at hx
  | (k, f) :: fs, [], x, y, hf, _, _, hy, h => by
    unfold okFields at hf
    obtain ⟨c, t, e, hc⟩ := flat_start (d := .word k) (by unfold Dbg.Ok; exact hf.1)
    unfold Dbg.flat at e
    simp only [flatFields, List.nil_append, e, List.cons_append] at h
    subst h
    simp [Close, hc.1, hc.2.1, hc.2.2] at hy
  | (k, f) :: fs, (k', g) :: gs, x, y, hf, hg, hx, hy, h => by
    unfold okFields at hf hg
    simp only [flatFields, List.cons_append, List.append_assoc] at h
    obtain ⟨e0, e1⟩ := words_split (isWord_all hf.1) (isWord_all hg.1) rfl rfl h
    simp only [List.cons.injEq, true_and] at e1
    obtain ⟨e1, e2⟩ := flat_inj f g _ _ hf.2.1 hg.2.1 rfl rfl e1
    simp only [List.cons.injEq, true_and] at e2
    obtain ⟨e3, e4⟩ := fields_inj fs gs x y hf.2.2 hg.2.2 hx hy e2
    exact ⟨by rw [String.toList_inj.1 e0, e1, e3], e4⟩
end

/-- The alternate form determines the tree. -/
theorem pretty_inj {a b : Dbg} (ha : a.Ok) (hb : b.Ok) (h : a.pretty = b.pretty) : a = b := by
  have e1 := strip_pretty a false [] ha
  have e2 := strip_pretty b false [] hb
  rw [h, e2] at e1
  exact (flat_inj a b [] [] ha hb rfl rfl (by simpa [strip] using e1.symm)).1

end Wadec
