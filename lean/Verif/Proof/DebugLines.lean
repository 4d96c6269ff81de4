import Verif.Proof.DebugErrors

/-! Every line of `{:#?}` but the first starts with a space or a closing bracket. -/

namespace Wadec

/-- The text starts with a space or a closing bracket. -/
def starts : List Char → Bool
  | [] => false
  | c :: _ => c == ' ' || c == ')' || c == ']' || c == '}'

/-- Every line but the first starts with a space or a closing bracket. -/
def indented : List Char → Bool
  | [] => true
  | c :: cs => (c != '\n' || starts cs) && indented cs

theorem indented_at : ∀ {l a b : List Char}, indented l = true → l = a ++ '\n' :: b → starts b = true
  | _, [], b, h, rfl => by simp [indented] at h; exact h.1
  | _, c :: a, b, h, rfl => by
    simp only [List.cons_append, indented, Bool.and_eq_true] at h
    exact indented_at h.2 rfl

theorem indented_line : ∀ {l rest : List Char}, '\n' ∉ l → indented rest = true → indented (l ++ rest) = true
  | [], _, _, h => h
  | c :: l, rest, hl, h => by
    simp only [List.mem_cons, not_or] at hl
    simp only [List.cons_append, indented, Bool.and_eq_true, Bool.or_eq_true, bne_iff_ne]
    exact ⟨.inl (fun e => hl.1 e.symm), indented_line hl.2 h⟩

theorem indented_pad : ∀ (xs : List Char) (b : Bool) (rest : List Char), starts rest = true → indented rest = true →
    indented (pad b xs ++ rest) = true
  | [], b, rest, _, h => by cases b <;> exact h
  | c :: cs, b, rest, hs, h => by
    have ih := indented_pad cs (c == '\n') rest hs h
    have key : indented (c :: (pad (c == '\n') cs ++ rest)) = true := by
      simp only [indented, ih, Bool.and_true, Bool.or_eq_true, bne_iff_ne]
      by_cases hc : c = '\n'
      · subst hc
        refine .inr ?_
        cases cs with
        | nil => exact hs
        | cons d ds => rfl
      · exact .inl hc
    cases b with
    | false => exact key
    | true =>
      show indented (' ' :: ' ' :: ' ' :: ' ' :: c :: (pad (c == '\n') cs ++ rest)) = true
      simp only [indented]
      simp only [indented] at key
      simpa using key

theorem starts_pad (c : Char) (l rest : List Char) : starts (pad true (c :: l) ++ rest) = true := rfl

theorem word_line {s : String} (h : isWord s = true) : '\n' ∉ s.toList := by
  intro hm
  exact absurd (List.all_eq_true.1 (isWord_all h) _ hm) (by decide)

theorem starts_items (fs : List Dbg) {rest : List Char} (h : starts rest = true) :
    starts (prettyItems fs ++ rest) = true := by
  cases fs with
  | nil => exact h
  | cons f fs =>
    simp only [prettyItems, List.append_assoc]
    cases f.pretty <;> rfl

theorem starts_fields (fs : List (String × Dbg)) {rest : List Char} (h : starts rest = true) :
    starts (prettyFields fs ++ rest) = true := by
  rcases fs with _ | ⟨⟨k, f⟩, fs⟩
  · exact h
  · simp only [prettyFields, List.append_assoc]
    cases k.toList <;> rfl

theorem indented_items : ∀ (fs : List Dbg) {rest : List Char}, starts rest = true → indented rest = true →
    indented (prettyItems fs ++ rest) = true
  | [], _, _, h => h
  | f :: fs, rest, hs, h => by
    simp only [prettyItems, List.append_assoc]
    exact indented_pad _ _ _ (starts_items fs hs) (indented_items fs hs h)

theorem indented_fields : ∀ (fs : List (String × Dbg)) {rest : List Char}, starts rest = true → indented rest = true →
    indented (prettyFields fs ++ rest) = true
  | [], _, _, h => h
  | (k, f) :: fs, rest, hs, h => by
    simp only [prettyFields, List.append_assoc]
    exact indented_pad _ _ _ (starts_fields fs hs) (indented_fields fs hs h)

theorem pretty_indented {rest : List Char} (hr : indented rest = true) : ∀ d : Dbg, d.Ok →
    indented (d.pretty ++ rest) = true
  | .word s, h => by
    unfold Dbg.Ok at h; unfold Dbg.pretty
    exact indented_line (word_line h) hr
  | .str s, h => by
    unfold Dbg.Ok at h; unfold Dbg.pretty
    rw [show '"' :: (s.toList ++ ['"']) ++ rest = ('"' :: (s.toList ++ ['"'])) ++ rest from rfl]
    refine indented_line ?_ hr
    simp [closed_line h]
  | .unit, _ => by
    unfold Dbg.pretty
    exact indented_line (by decide) hr
  | .tuple n [], h => by unfold Dbg.Ok at h; exact absurd rfl h.2.1
  | .tuple n (f :: fs), h => by
    unfold Dbg.Ok at h
    simp only [Dbg.pretty, List.append_assoc, List.cons_append, List.nil_append]
    refine indented_line (word_line h.1) ?_
    have hc : indented (')' :: rest) = true := by simp [indented, hr]
    have := indented_pad (f.pretty ++ [',', '\n']) true _ (starts_items fs (rest := ')' :: rest) rfl)
      (indented_items fs rfl hc)
    have hs : starts (pad true (f.pretty ++ [',', '\n']) ++ (prettyItems fs ++ ')' :: rest)) = true := by
      cases f.pretty <;> rfl
    simp only [indented, hs, this]; rfl
  | .struct n [], h => by unfold Dbg.Ok at h; exact absurd rfl h.2.1
  | .struct n ((k, f) :: fs), h => by
    unfold Dbg.Ok at h
    simp only [Dbg.pretty, List.append_assoc, List.cons_append, List.nil_append]
    refine indented_line (word_line h.1) ?_
    have hc : indented ('}' :: rest) = true := by simp [indented, hr]
    have := indented_pad (k.toList ++ ':' :: ' ' :: (f.pretty ++ [',', '\n'])) true _
      (starts_fields fs (rest := '}' :: rest) rfl) (indented_fields fs rfl hc)
    have hs : starts (pad true (k.toList ++ ':' :: ' ' :: (f.pretty ++ [',', '\n'])) ++
        (prettyFields fs ++ '}' :: rest)) = true := by
      cases k.toList <;> rfl
    simp only [indented, hs, this]; rfl
  | .list [], _ => by
    unfold Dbg.pretty
    exact indented_line (by decide) hr
  | .list (f :: fs), h => by
    simp only [Dbg.pretty, List.append_assoc, List.cons_append, List.nil_append]
    have hc : indented (']' :: rest) = true := by simp [indented, hr]
    have := indented_pad (f.pretty ++ [',', '\n']) true _ (starts_items fs (rest := ']' :: rest) rfl)
      (indented_items fs rfl hc)
    have hs : starts (pad true (f.pretty ++ [',', '\n']) ++ (prettyItems fs ++ ']' :: rest)) = true := by
      cases f.pretty <;> rfl
    simp only [indented, hs, this]; rfl
  | .path n d, h => by
    unfold Dbg.Ok at h; unfold Dbg.pretty
    have := pretty_indented hr d h.2
    rw [List.append_assoc]
    refine indented_line (word_line h.1) ?_
    simp only [List.cons_append, indented, this]; rfl

/-- the heading that precedes the debug text of an error -/
def headingText : List Char := "DEBUG OUTPUT:".toList

/-- The debug text can be found in the report. -/
theorem heading_split {s1 s2 d1 d2 : List Char} (h1 : indented d1 = true) (h2 : indented d2 = true)
    (e1 : d1[1]? ≠ some 'E') (e2 : d2[1]? ≠ some 'E')
    (h : s1 ++ ('\n' :: (headingText ++ '\n' :: d1)) = s2 ++ ('\n' :: (headingText ++ '\n' :: d2))) :
    s1 = s2 ∧ d1 = d2 := by
  have no : ∀ (w t d d' : List Char), '\n' ∉ w → w[0]? = some 'D' → w[1]? = some 'E' → indented d = true →
      d[1]? ≠ some 'E' → w ++ '\n' :: d ≠ t ++ '\n' :: (w ++ '\n' :: d') := by
    intro w t d d' hw w0 w1 hd he h
    obtain ⟨w', rfl⟩ : ∃ w', w = 'D' :: 'E' :: w' := by
      match w, w0, w1 with
      | a :: b :: w', h0, h1 => simp at h0 h1; exact ⟨w', by rw [h0, h1]⟩
    rcases List.append_eq_append_iff.1 h with ⟨u, rfl, hu⟩ | ⟨u, hu, hv⟩
    · cases u with
      | nil =>
        simp only [List.nil_append, List.cons_append, List.cons.injEq, true_and] at hu
        apply he; rw [hu]; rfl
      | cons c u =>
        simp only [List.cons_append, List.cons.injEq] at hu
        have := indented_at hd hu.2
        simp [starts] at this
    · cases u with
      | nil =>
        simp only [List.nil_append, List.cons_append, List.cons.injEq, true_and] at hv
        apply he; rw [← hv]; rfl
      | cons c u =>
        simp only [List.cons_append, List.cons.injEq] at hv
        obtain ⟨rfl, _⟩ := hv
        exact hw (by rw [hu]; simp)
  have hw : '\n' ∉ headingText := by decide
  rcases List.append_eq_append_iff.1 h with ⟨t, rfl, ht⟩ | ⟨t, rfl, ht⟩
  · cases t with
    | nil =>
      simp only [List.nil_append, List.cons.injEq, true_and] at ht
      have := List.append_cancel_left ht
      simp only [List.cons.injEq, true_and] at this
      exact ⟨by simp, this⟩
    | cons c t =>
      simp only [List.cons_append, List.cons.injEq] at ht
      exact absurd ht.2 (no _ _ _ _ hw rfl rfl h1 e1)
  · cases t with
    | nil =>
      simp only [List.nil_append, List.cons.injEq, true_and] at ht
      have := List.append_cancel_left ht
      simp only [List.cons.injEq, true_and] at this
      exact ⟨by simp, this.symm⟩
    | cons c t =>
      simp only [List.cons_append, List.cons.injEq] at ht
      exact absurd ht.2 (no _ _ _ _ hw rfl rfl h2 e2)

theorem moduleError_second (T : StdText) (e : DecodeModuleError) : (dbg T e).pretty[1]? ≠ some 'E' := by
  have : ((dbg T e).pretty[1]? == some 'E') = false := by cases e <;> rfl
  simpa using this

end Wadec
