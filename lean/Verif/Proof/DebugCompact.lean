import Verif.Proof.Debug

/-! The layout of `{:?}` can be read back, too. -/

namespace Wadec

theorem term_strip {x : List Char} (h : Term x = true) : Term (strip false x) = true := by
  match x, h with
  | [], _ => rfl
  | [c], h =>
    simp only [strip, Bool.false_eq_true, false_and, if_false]
    exact h
  | c :: d :: x, h =>
    simp only [strip, Bool.false_eq_true, false_and, if_false]
    by_cases hs : c = ' '
    · subst hs
      have hd : d = '}' := by simpa [Term] using h
      subst hd
      rfl
    · have hc : c = ',' ∨ c = ')' ∨ c = ']' := by simp [Term, hs] at h; grind
      generalize (if (c == '\n') = true ∧ d = ' ' then _ else _) = l
      rcases hc with rfl | rfl | rfl <;> cases l <;> rfl

/-- The alternate form with something behind it. -/
theorem pretty_inj_term {a b : Dbg} {x y : List Char} (ha : a.Ok) (hb : b.Ok) (hx : Term x = true)
    (hy : Term y = true) (h : a.pretty ++ x = b.pretty ++ y) : a = b ∧ x = y := by
  have e1 := strip_pretty a false x ha
  have e2 := strip_pretty b false y hb
  rw [h, e2] at e1
  have e := (flat_inj a b _ _ ha hb (term_strip hx) (term_strip hy) e1.symm).1
  subst e
  exact ⟨rfl, List.append_cancel_left h⟩

/-- The text behind the name at the start. -/
def Dbg.ctail : Dbg → List Char
  | .word _ => []
  | .str s => '"' :: (s.toList ++ ['"'])
  | .unit => ['(', ')']
  | .tuple _ [] => []
  | .tuple _ (f :: fs) => '(' :: (f.compact ++ (compactItems fs ++ [')']))
  | .struct _ [] => []
  | .struct _ ((k, f) :: fs) =>
    ' ' :: '{' :: ' ' :: (k.toList ++ ':' :: ' ' :: (f.compact ++ (compactFields fs ++ [' ', '}'])))
  | .list [] => ['[', ']']
  | .list (x :: xs) => '[' :: (x.compact ++ (compactItems xs ++ [']']))
  | .path _ d => ':' :: ':' :: d.pretty

theorem compact_head_tail (d : Dbg) : d.compact = d.head.toList ++ d.ctail := by
  cases d with
  | list xs => cases xs <;> simp [Dbg.compact, Dbg.head, Dbg.ctail]
  | tuple n xs => cases xs <;> simp [Dbg.compact, Dbg.head, Dbg.ctail]
  | struct n xs => rcases xs with _ | ⟨⟨k, f⟩, fs⟩ <;> simp [Dbg.compact, Dbg.head, Dbg.ctail]
  | _ => simp [Dbg.compact, Dbg.head, Dbg.ctail]

theorem ctail_sep (d : Dbg) {x : List Char} (h : Term x = true) : Sep (d.ctail ++ x) = true := by
  cases d with
  | word => exact sep_of_term h
  | list xs => cases xs <;> rfl
  | tuple n xs => cases xs; exact sep_of_term h; rfl
  | struct n xs => rcases xs with _ | ⟨⟨k, f⟩, fs⟩; exact sep_of_term h; rfl
  | _ => rfl

theorem compact_start {d : Dbg} (h : d.Ok) : ∃ c t, d.compact = c :: t ∧ c ≠ ')' ∧ c ≠ ']' ∧ c ≠ '}' := by
  have word : ∀ {s : String} {t : List Char}, isWord s = true →
      ∃ c u, s.toList ++ t = c :: u ∧ c ≠ ')' ∧ c ≠ ']' ∧ c ≠ '}' := by
    intro s t hs
    unfold isWord at hs
    cases e : s.toList with
    | nil => rw [e] at hs; cases hs
    | cons c u =>
      rw [e] at hs
      simp only [List.isEmpty_cons, Bool.not_false, List.all_cons, Bool.true_and, Bool.and_eq_true] at hs
      refine ⟨c, u ++ t, rfl, ?_, ?_, ?_⟩ <;> (rintro rfl; exact absurd hs.1 (by decide))
  rw [compact_head_tail]
  cases d with
  | word s => unfold Dbg.Ok at h; exact word h
  | tuple => unfold Dbg.Ok at h; exact word h.1
  | struct => unfold Dbg.Ok at h; exact word h.1
  | path => unfold Dbg.Ok at h; exact word h.1
  | str => exact ⟨_, _, rfl, by decide, by decide, by decide⟩
  | unit => exact ⟨_, _, rfl, by decide, by decide, by decide⟩
  | list xs => cases xs <;> exact ⟨_, _, rfl, by decide, by decide, by decide⟩

theorem compact_split {a b : Dbg} {x y : List Char} (ha : a.Ok) (hb : b.Ok) (hx : Term x = true) (hy : Term y = true)
    (h : a.compact ++ x = b.compact ++ y) : a.head = b.head ∧ a.ctail ++ x = b.ctail ++ y := by
  rw [compact_head_tail a, compact_head_tail b, List.append_assoc, List.append_assoc] at h
  obtain ⟨e1, e2⟩ := words_split (head_all ha) (head_all hb) (ctail_sep a hx) (ctail_sep b hy) h
  exact ⟨String.toList_inj.1 e1, e2⟩

theorem items_term {fs : List Dbg} {x : List Char} (hx : Close x = true) (h : ∀ c t, x = c :: t → c ≠ '}') :
    Term (compactItems fs ++ x) = true := by
  cases fs with
  | nil =>
    cases x with
    | nil => cases hx
    | cons c t =>
      have := h c t rfl
      simp [Close, this] at hx
      rcases hx with rfl | rfl <;> cases t <;> rfl
  | cons f fs => rfl

theorem fields_term {fs : List (String × Dbg)} {x : List Char} :
    Term (compactFields fs ++ ' ' :: '}' :: x) = true := by
  rcases fs with _ | ⟨⟨k, f⟩, fs⟩ <;> rfl

theorem not_word {b : Dbg} {y : List Char} (hb : b.Ok) (hw : ∀ s, b ≠ .word s) (h : Term (b.ctail ++ y) = true) :
    False := by
  cases b with
  | word s => exact hw s rfl
  | str => simp [Dbg.ctail, not_term1] at h
  | unit => simp [Dbg.ctail, not_term1] at h
  | list xs => cases xs <;> simp [Dbg.ctail, not_term1] at h
  | tuple n xs => cases xs with
    | nil => unfold Dbg.Ok at hb; exact hb.2.1 rfl
    | cons => simp [Dbg.ctail, not_term1] at h
  | struct n xs => rcases xs with _ | ⟨⟨k, f⟩, fs⟩
                   · unfold Dbg.Ok at hb; exact hb.2.1 rfl
                   · simp [Dbg.ctail, not_term1] at h
  | path => simp [Dbg.ctail, not_term1] at h

theorem head_word {b : Dbg} (hb : b.Ok) (h : b.head = "") :
    (∃ s, b = .str s) ∨ b = .unit ∨ ∃ xs, b = .list xs := by
  cases b with
  | str s => exact .inl ⟨s, rfl⟩
  | unit => exact .inr (.inl rfl)
  | list xs => exact .inr (.inr ⟨xs, rfl⟩)
  | word => unfold Dbg.Ok at hb; exact absurd h (isWord_ne hb)
  | _ => unfold Dbg.Ok at hb; exact absurd h (isWord_ne hb.1)

mutual
theorem compact_inj : ∀ (a b : Dbg) (x y : List Char), a.Ok → b.Ok → Term x = true → Term y = true →
    a.compact ++ x = b.compact ++ y → a = b ∧ x = y
  | .word s, b, x, y, ha, hb, hx, hy, h => by
    obtain ⟨e1, e2⟩ := compact_split ha hb hx hy h
    simp only [Dbg.ctail, List.nil_append] at e2
    by_cases hw : ∃ t, b = .word t
    · obtain ⟨t, rfl⟩ := hw
      exact ⟨congrArg _ e1, e2⟩
    · exact (not_word hb (fun s e => hw ⟨s, e⟩) (e2 ▸ hx)).elim
  | .str s, b, x, y, ha, hb, hx, hy, h => by
    obtain ⟨e1, e2⟩ := compact_split ha hb hx hy h
    rcases head_word hb e1.symm with ⟨t, rfl⟩ | rfl | ⟨xs, rfl⟩
    · unfold Dbg.Ok at ha hb
      simp only [Dbg.ctail, List.cons_append, List.cons.injEq, true_and, List.append_assoc, List.nil_append] at e2
      obtain ⟨e3, e4⟩ := closed_split ha hb e2
      exact ⟨congrArg _ (String.toList_inj.1 e3), e4⟩
    · simp [Dbg.ctail] at e2
    · cases xs <;> simp [Dbg.ctail] at e2
  | .unit, b, x, y, ha, hb, hx, hy, h => by
    obtain ⟨e1, e2⟩ := compact_split ha hb hx hy h
    rcases head_word hb e1.symm with ⟨t, rfl⟩ | rfl | ⟨xs, rfl⟩
    · simp [Dbg.ctail] at e2
    · exact ⟨rfl, by simpa [Dbg.ctail] using e2⟩
    · cases xs <;> simp [Dbg.ctail] at e2
  | .tuple n [], b, x, y, ha, hb, hx, hy, h => by unfold Dbg.Ok at ha; exact absurd rfl ha.2.1
  | .tuple n (f :: fs), b, x, y, ha, hb, hx, hy, h => by
    obtain ⟨e1, e2⟩ := compact_split ha hb hx hy h
    unfold Dbg.Ok at ha
    cases b with
    | tuple m gs =>
      cases gs with
      | nil => unfold Dbg.Ok at hb; exact absurd rfl hb.2.1
      | cons g gs =>
        unfold Dbg.Ok at hb
        have ha' := ha.2.2
        have hb' := hb.2.2
        unfold okItems at ha' hb'
        simp only [Dbg.ctail, List.cons_append, List.cons.injEq, true_and, List.append_assoc, List.nil_append] at e2
        obtain ⟨e3, e4⟩ := compact_inj f g _ _ ha'.1 hb'.1 (items_term rfl (by rintro _ _ ⟨⟩; decide))
          (items_term rfl (by rintro _ _ ⟨⟩; decide)) e2
        obtain ⟨e5, e6⟩ := citems_inj fs gs (')' :: x) (')' :: y) ha'.2 hb'.2 rfl rfl
          (by rintro _ _ ⟨⟩; decide) (by rintro _ _ ⟨⟩; decide) e4
        simp only [List.cons.injEq, true_and] at e6
        cases e1
        exact ⟨by rw [e3, e5], e6⟩
    | word => simp only [Dbg.ctail, List.nil_append] at e2; subst e2; simp [not_term1] at hy
    | struct m gs => rcases gs with _ | ⟨⟨k, f⟩, gs⟩
                     · unfold Dbg.Ok at hb; exact absurd rfl hb.2.1
                     · simp [Dbg.ctail] at e2
    | path => simp [Dbg.ctail] at e2
    | _ => exact absurd e1 (isWord_ne ha.1)
  | .struct n [], b, x, y, ha, hb, hx, hy, h => by unfold Dbg.Ok at ha; exact absurd rfl ha.2.1
  | .struct n ((k, f) :: fs), b, x, y, ha, hb, hx, hy, h => by
    obtain ⟨e1, e2⟩ := compact_split ha hb hx hy h
    unfold Dbg.Ok at ha
    cases b with
    | struct m gs =>
      rcases gs with _ | ⟨⟨k', g⟩, gs⟩
      · unfold Dbg.Ok at hb; exact absurd rfl hb.2.1
      · unfold Dbg.Ok at hb
        have ha' := ha.2.2
        have hb' := hb.2.2
        unfold okFields at ha' hb'
        simp only [Dbg.ctail, List.cons_append, List.cons.injEq, true_and, List.append_assoc, List.nil_append] at e2
        obtain ⟨e0, e2⟩ := words_split (isWord_all ha'.1) (isWord_all hb'.1) rfl rfl e2
        simp only [List.cons.injEq, true_and] at e2
        obtain ⟨e3, e4⟩ := compact_inj f g _ _ ha'.2.1 hb'.2.1 fields_term fields_term e2
        obtain ⟨e5, e6⟩ := cfields_inj fs gs x y ha'.2.2 hb'.2.2 e4
        cases e1
        exact ⟨by rw [e3, e5, String.toList_inj.1 e0], e6⟩
    | word => simp only [Dbg.ctail, List.nil_append] at e2; subst e2; simp [not_term1] at hy
    | tuple m gs => rcases gs with _ | ⟨f, gs⟩
                    · unfold Dbg.Ok at hb; exact absurd rfl hb.2.1
                    · simp [Dbg.ctail] at e2
    | path => simp [Dbg.ctail] at e2
    | _ => exact absurd e1 (isWord_ne ha.1)
  | .list [], b, x, y, ha, hb, hx, hy, h => by
    obtain ⟨e1, e2⟩ := compact_split ha hb hx hy h
    rcases head_word hb e1.symm with ⟨t, rfl⟩ | rfl | ⟨gs, rfl⟩
    · simp [Dbg.ctail] at e2
    · simp [Dbg.ctail] at e2
    · cases gs with
      | nil => exact ⟨rfl, by simpa [Dbg.ctail] using e2⟩
      | cons g gs =>
        unfold Dbg.Ok okItems at hb
        obtain ⟨c, t, e, hc⟩ := compact_start hb.1
        simp only [Dbg.ctail, e, List.cons_append, List.nil_append, List.cons.injEq, true_and] at e2
        exact absurd e2.1.symm hc.2.1
  | .list (f :: fs), b, x, y, ha, hb, hx, hy, h => by
    obtain ⟨e1, e2⟩ := compact_split ha hb hx hy h
    unfold Dbg.Ok okItems at ha
    rcases head_word hb e1.symm with ⟨t, rfl⟩ | rfl | ⟨gs, rfl⟩
    · simp [Dbg.ctail] at e2
    · simp [Dbg.ctail] at e2
    · cases gs with
      | nil =>
        obtain ⟨c, t, e, hc⟩ := compact_start ha.1
        simp only [Dbg.ctail, e, List.cons_append, List.nil_append, List.cons.injEq, true_and] at e2
        exact absurd e2.1 hc.2.1
      | cons g gs =>
        unfold Dbg.Ok okItems at hb
        simp only [Dbg.ctail, List.cons_append, List.cons.injEq, true_and, List.append_assoc, List.nil_append] at e2
        obtain ⟨e3, e4⟩ := compact_inj f g _ _ ha.1 hb.1 (items_term rfl (by rintro _ _ ⟨⟩; decide))
          (items_term rfl (by rintro _ _ ⟨⟩; decide)) e2
        obtain ⟨e5, e6⟩ := citems_inj fs gs (']' :: x) (']' :: y) ha.2 hb.2 rfl rfl
          (by rintro _ _ ⟨⟩; decide) (by rintro _ _ ⟨⟩; decide) e4
        simp only [List.cons.injEq, true_and] at e6
        exact ⟨by rw [e3, e5], e6⟩
  | .path n d, b, x, y, ha, hb, hx, hy, h => by
    obtain ⟨e1, e2⟩ := compact_split ha hb hx hy h
    unfold Dbg.Ok at ha
    cases b with
    | path m g =>
      unfold Dbg.Ok at hb
      simp only [Dbg.ctail, List.cons_append, List.cons.injEq, true_and] at e2
      obtain ⟨e3, e4⟩ := pretty_inj_term ha.2 hb.2 hx hy e2
      cases e1
      exact ⟨by rw [e3], e4⟩
    | word => simp only [Dbg.ctail, List.nil_append] at e2; subst e2; simp [not_term1] at hy
    | tuple m gs => rcases gs with _ | ⟨f, gs⟩
                    · unfold Dbg.Ok at hb; exact absurd rfl hb.2.1
                    · simp [Dbg.ctail] at e2
    | struct m gs => rcases gs with _ | ⟨⟨k, f⟩, gs⟩
                     · unfold Dbg.Ok at hb; exact absurd rfl hb.2.1
                     · simp [Dbg.ctail] at e2
    | _ => exact absurd e1 (isWord_ne ha.1)
theorem citems_inj : ∀ (fs gs : List Dbg) (x y : List Char), okItems fs → okItems gs → Close x = true →
    Close y = true → (∀ c t, x = c :: t → c ≠ '}') → (∀ c t, y = c :: t → c ≠ '}') →
    compactItems fs ++ x = compactItems gs ++ y → fs = gs ∧ x = y
  | [], [], x, y, _, _, _, _, _, _, h => ⟨rfl, by simpa [compactItems] using h⟩
  | [], g :: gs, x, y, _, _, hx, _, _, _, h => by
    simp only [compactItems, List.nil_append, List.cons_append] at h
    subst h
    simp [Close] at hx
  | f :: fs, [], x, y, _, _, _, hy, _, _, h => by
    simp only [compactItems, List.nil_append, List.cons_append] at h
    subst h
    simp [Close] at hy
  | f :: fs, g :: gs, x, y, hf, hg, hx, hy, nx, ny, h => by
    unfold okItems at hf hg
    simp only [compactItems, List.cons_append, List.append_assoc, List.cons.injEq, true_and] at h
    obtain ⟨e1, e2⟩ := compact_inj f g _ _ hf.1 hg.1 (items_term hx nx) (items_term hy ny) h
    obtain ⟨e3, e4⟩ := citems_inj fs gs x y hf.2 hg.2 hx hy nx ny e2
    exact ⟨by rw [e1, e3], e4⟩
theorem cfields_inj : ∀ (fs gs : List (String × Dbg)) (x y : List Char), okFields fs → okFields gs →
    compactFields fs ++ ' ' :: '}' :: x = compactFields gs ++ ' ' :: '}' :: y → fs = gs ∧ x = y
  | [], [], x, y, _, _, h => ⟨rfl, by simpa [compactFields] using h⟩
  | [], (k, g) :: gs, x, y, _, _, h => by simp [compactFields] at h
  | (k, f) :: fs, [], x, y, _, _, h => by simp [compactFields] at h
  | (k, f) :: fs, (k', g) :: gs, x, y, hf, hg, h => by
    unfold okFields at hf hg
    simp only [compactFields, List.cons_append, List.append_assoc, List.cons.injEq, true_and] at h
    obtain ⟨e0, e1⟩ := words_split (isWord_all hf.1) (isWord_all hg.1) rfl rfl h
    simp only [List.cons.injEq, true_and] at e1
    obtain ⟨e1, e2⟩ := compact_inj f g _ _ hf.2.1 hg.2.1 fields_term fields_term e1
    obtain ⟨e3, e4⟩ := cfields_inj fs gs x y hf.2.2 hg.2.2 e2
    exact ⟨by rw [String.toList_inj.1 e0, e1, e3], e4⟩
end

/-- The plain form determines the tree. -/
theorem compact_eq {a b : Dbg} (ha : a.Ok) (hb : b.Ok) (h : a.compact = b.compact) : a = b :=
  (compact_inj a b [] [] ha hb rfl rfl (by rw [h])).1

end Wadec
