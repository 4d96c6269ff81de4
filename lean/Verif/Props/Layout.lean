import Verif.Spec.Layout
import Verif.Props.Debug
import Verif.Props.Lines
import Verif.Props.DebugSample

/-! C71: debug texts are laid out by nesting. -/

namespace Wadec

open LawfulRead Spec

/-- the text with these lines -/
def written (ls : List (List Char)) : List Char := ls.flatMap (fun l => l ++ ['\n'])

/-- no line contains a line break -/
def Whole (ls : List (List Char)) : Prop := ∀ l ∈ ls, '\n' ∉ l

theorem written_append (a b : List (List Char)) : written (a ++ b) = written a ++ written b := by simp [written]
theorem written_cons (l : List Char) (ls : List (List Char)) : written (l :: ls) = l ++ '\n' :: written ls := by
  simp [written]

theorem pad_line : ∀ (l : List Char) (rest : List Char), '\n' ∉ l → pad false (l ++ '\n' :: rest) = l ++ '\n' :: pad true rest
  | [], rest, _ => by simp [pad]
  | c :: l, rest, h => by
    simp only [List.mem_cons, not_or] at h
    have hc : (c == '\n') = false := by simpa using Ne.symm h.1
    simp only [List.cons_append, pad, hc, pad_line l rest h.2]

theorem pad_lines : ∀ ls : List (List Char), Whole ls → pad true (written ls) = written (shifted ls)
  | [], _ => rfl
  | l :: ls, h => by
    have ih := pad_lines ls fun x hx => h x (List.mem_cons_of_mem _ hx)
    have hl := h l (List.mem_cons_self ..)
    rw [written_cons, show shifted (l :: ls) = ([' ', ' ', ' ', ' '] ++ l) :: shifted ls from rfl, written_cons, ← ih]
    cases l with
    | nil => simp [pad]
    | cons c l =>
      simp only [List.mem_cons, not_or] at hl
      have hc : (c == '\n') = false := by simpa using Ne.symm hl.1
      simp only [List.cons_append, pad, hc, pad_line l _ hl.2, List.nil_append]

theorem lines_written : ∀ ls : List (List Char), Whole ls → Spec.lines (written ls) = ls
  | [], _ => rfl
  | l :: ls, h => by
    rw [written_cons, lines_cons (h l (List.mem_cons_self ..)), lines_written ls fun x hx => h x (List.mem_cons_of_mem _ hx)]

theorem whole_shifted {ls : List (List Char)} (h : Whole ls) : Whole (shifted ls) := by
  intro l hl
  obtain ⟨x, hx, rfl⟩ := List.mem_map.1 hl
  have := h x hx
  simp [this]

theorem whole_comma : ∀ {ls : List (List Char)}, Whole ls → Whole (withComma ls)
  | [], _ => fun _ h => by cases h
  | [l], h => fun x hx => by
    have := h l (List.mem_cons_self ..)
    simp only [withComma, List.mem_singleton] at hx
    subst hx
    simp [this]
  | l :: m :: ls, h => fun x hx => by
    simp only [withComma, List.mem_cons] at hx
    rcases hx with rfl | hx
    · exact h x (List.mem_cons_self ..)
    · exact whole_comma (ls := m :: ls) (fun x hx => h x (List.mem_cons_of_mem _ hx)) x (by simpa using hx)

theorem whole_label {s : List Char} (hs : '\n' ∉ s) : ∀ {ls : List (List Char)}, Whole ls → Whole (withLabel s ls)
  | [], _ => fun _ h => by cases h
  | l :: ls, h => fun x hx => by
    simp only [withLabel, List.mem_cons] at hx
    rcases hx with rfl | hx
    · have := h l (List.mem_cons_self ..)
      simp [hs, this]
    · exact h x (List.mem_cons_of_mem _ hx)

theorem whole_append {a b : List (List Char)} (ha : Whole a) (hb : Whole b) : Whole (a ++ b) := by
  intro l hl
  rcases List.mem_append.1 hl with h | h
  · exact ha l h
  · exact hb l h
theorem whole_cons {l : List Char} {b : List (List Char)} (ha : '\n' ∉ l) (hb : Whole b) : Whole (l :: b) := by
  intro x hx
  rcases List.mem_cons.1 hx with rfl | h
  · exact ha
  · exact hb _ h
theorem whole_nil : Whole [] := fun _ h => by cases h

theorem written_comma : ∀ {ls : List (List Char)} {x : List Char}, ls ≠ [] → written ls = x ++ ['\n'] →
    written (withComma ls) = x ++ [',', '\n']
  | [], _, h, _ => absurd rfl h
  | [l], x, _, e => by
    simp only [written, List.flatMap_cons, List.flatMap_nil, List.append_nil] at e
    rw [← List.append_cancel_right e]
    simp [withComma, written]
  | l :: m :: ls, x, _, e => by
    rw [withComma, written_cons]
    · rw [written_cons] at e
      -- `x` begins with the first line
      have hne : written (m :: ls) ≠ [] := by simp [written]
      obtain ⟨y, hy⟩ : ∃ y, written (m :: ls) = y ++ ['\n'] := by
        have h1 : ((l ++ '\n' :: written (m :: ls))).getLast? = some '\n' := by rw [e]; simp
        rw [List.getLast?_append, List.getLast?_cons] at h1
        have h2 : (written (m :: ls)).getLast? = some '\n' := by
          cases ht : written (m :: ls) with
          | nil => exact absurd ht hne
          | cons a t =>
            rw [ht] at h1
            simpa [List.getLast?_cons] using h1
        rw [List.getLast?_eq_some_getLast hne] at h2
        injection h2 with h2
        exact ⟨(written (m :: ls)).dropLast, by rw [← h2, List.dropLast_concat_getLast hne]⟩
      rw [written_comma (ls := m :: ls) (by simp) hy]
      rw [hy, ← List.cons_append, ← List.append_assoc] at e
      have := List.append_cancel_right e
      rw [← this]
      simp
    · simp

theorem written_label {s : List Char} : ∀ {ls : List (List Char)}, ls ≠ [] → written (withLabel s ls) = s ++ written ls
  | [], h => absurd rfl h
  | l :: ls, _ => by simp [withLabel, written]

theorem word_whole {s : String} (h : isWord s = true) : '\n' ∉ s.toList := by
  simp only [isWord, Bool.and_eq_true] at h
  intro hm
  have := List.all_eq_true.1 h.2 _ hm
  revert this; decide

theorem closed_whole : ∀ {l : List Char}, closed l = true → '\n' ∉ l := by
  intro l
  fun_induction closed l with
  | case1 => simp
  | case2 c cs ih =>
    intro h
    simp only [Bool.and_eq_true, bne_iff_ne, ne_eq] at h
    simp only [List.mem_cons, not_or]
    exact ⟨by decide, Ne.symm h.1, ih h.2⟩
  | case3 c cs _ ih =>
    intro h
    simp only [Bool.and_eq_true, bne_iff_ne, ne_eq] at h
    simp only [List.mem_cons, not_or]
    exact ⟨Ne.symm h.1.2, ih h.2⟩

theorem layout_ne (d : Dbg) : layout d ≠ [] := by
  cases d with
  | tuple n fs => cases fs <;> simp [layout]
  | struct n fs => cases fs <;> simp [layout]
  | list fs => cases fs <;> simp [layout]
  | path n d =>
    have := layout_ne d
    simp only [layout]
    cases h : layout d with
    | nil => exact absurd h this
    | cons => simp [withLabel]
  | _ => simp [layout]

mutual
theorem layout_whole : ∀ d : Dbg, d.Ok → Whole (layout d)
  | .word s, h => by unfold Dbg.Ok at h; exact whole_cons (word_whole h) whole_nil
  | .str s, h => by
    unfold Dbg.Ok at h
    refine whole_cons ?_ whole_nil
    have := closed_whole h
    simp [this]
  | .unit, _ => whole_cons (by decide) whole_nil
  | .tuple n [], h => by unfold Dbg.Ok at h; exact absurd rfl h.2.1
  | .tuple n (f :: fs), h => by
    unfold Dbg.Ok at h
    have := word_whole h.1
    exact whole_cons (by simp [this]) (whole_append (items_whole _ h.2.2) (whole_cons (by decide) whole_nil))
  | .struct n [], h => by unfold Dbg.Ok at h; exact absurd rfl h.2.1
  | .struct n (f :: fs), h => by
    unfold Dbg.Ok at h
    have := word_whole h.1
    exact whole_cons (by simp [this]) (whole_append (fields_whole _ h.2.2) (whole_cons (by decide) whole_nil))
  | .list [], h => whole_cons (by decide) whole_nil
  | .list (x :: xs), h => by
    unfold Dbg.Ok at h
    exact whole_cons (by decide) (whole_append (items_whole _ h) (whole_cons (by decide) whole_nil))
  | .path n d, h => by
    unfold Dbg.Ok at h
    have := word_whole h.1
    exact whole_label (by simp [this]) (layout_whole d h.2)
theorem items_whole : ∀ fs : List Dbg, okItems fs → Whole (layoutItems fs)
  | [], _ => whole_nil
  | f :: fs, h => by
    unfold okItems at h
    exact whole_append (whole_shifted (whole_comma (layout_whole f h.1))) (items_whole fs h.2)
theorem fields_whole : ∀ fs : List (String × Dbg), okFields fs → Whole (layoutFields fs)
  | [], _ => whole_nil
  | (k, f) :: fs, h => by
    unfold okFields at h
    have := word_whole h.1
    exact whole_append (whole_shifted (whole_comma (whole_label (by simp [this]) (layout_whole f h.2.1)))) (fields_whole fs h.2.2)
end

mutual
theorem pretty_layout : ∀ d : Dbg, d.Ok → written (layout d) = d.pretty ++ ['\n']
  | .word s, _ => by simp [layout, written, Dbg.pretty]
  | .str s, _ => by simp [layout, written, Dbg.pretty]
  | .unit, _ => by simp [layout, written, Dbg.pretty]
  | .tuple n [], _ => by simp [layout, written, Dbg.pretty]
  | .tuple n (f :: fs), h => by
    unfold Dbg.Ok at h
    simp only [layout, Dbg.pretty, written_cons, written_append, items_layout (f :: fs) h.2.2, prettyItems]
    simp [written]
  | .struct n [], _ => by simp [layout, written, Dbg.pretty]
  | .struct n ((k, f) :: fs), h => by
    unfold Dbg.Ok at h
    simp only [layout, Dbg.pretty, written_cons, written_append, fields_layout ((k, f) :: fs) h.2.2, prettyFields]
    simp [written]
  | .list [], _ => by simp [layout, written, Dbg.pretty]
  | .list (x :: xs), h => by
    unfold Dbg.Ok at h
    simp only [layout, Dbg.pretty, written_cons, written_append, items_layout (x :: xs) h, prettyItems]
    simp [written]
  | .path n d, h => by
    unfold Dbg.Ok at h
    rw [layout, written_label (layout_ne d), pretty_layout d h.2]
    simp [Dbg.pretty]
theorem items_layout : ∀ fs : List Dbg, okItems fs → written (layoutItems fs) = prettyItems fs
  | [], _ => rfl
  | f :: fs, h => by
    unfold okItems at h
    rw [layoutItems, written_append, items_layout fs h.2, prettyItems,
      ← pad_lines _ (whole_comma (layout_whole f h.1)), written_comma (layout_ne f) (pretty_layout f h.1)]
theorem fields_layout : ∀ fs : List (String × Dbg), okFields fs → written (layoutFields fs) = prettyFields fs
  | [], _ => rfl
  | (k, f) :: fs, h => by
    unfold okFields at h
    have hk := word_whole h.1
    have hne : withLabel (k.toList ++ [':', ' ']) (layout f) ≠ [] := by
      have := layout_ne f
      cases hl : layout f with
      | nil => exact absurd hl this
      | cons => simp [withLabel]
    have ht : written (withLabel (k.toList ++ [':', ' ']) (layout f)) = (k.toList ++ ':' :: ' ' :: f.pretty) ++ ['\n'] := by
      rw [written_label (layout_ne f), pretty_layout f h.2.1]; simp
    rw [layoutFields, written_append, fields_layout fs h.2.2, prettyFields,
      ← pad_lines _ (whole_comma (whole_label (by simp [hk]) (layout_whole f h.2.1))), written_comma hne ht]
    simp
end

theorem written_eq : ∀ {ls : List (List Char)} {x : List Char}, ls ≠ [] → written ls = x ++ ['\n'] → ['\n'].intercalate ls = x
  | [], _, h, _ => absurd rfl h
  | [l], x, _, e => by
    simp only [written, List.flatMap_cons, List.flatMap_nil, List.append_nil] at e
    rw [← List.append_cancel_right e]
    simp [List.intercalate]
  | l :: m :: ls, x, _, e => by
    obtain ⟨y, hy⟩ : ∃ y, written (m :: ls) = y ++ ['\n'] := by
      have hne : written (m :: ls) ≠ [] := by simp [written]
      rw [written_cons] at e
      have h1 : ((l ++ '\n' :: written (m :: ls))).getLast? = some '\n' := by rw [e]; simp
      rw [List.getLast?_append, List.getLast?_cons] at h1
      have h2 : (written (m :: ls)).getLast? = some '\n' := by
        cases ht : written (m :: ls) with
        | nil => exact absurd ht hne
        | cons a t =>
          rw [ht] at h1
          simpa [List.getLast?_cons] using h1
      rw [List.getLast?_eq_some_getLast hne] at h2
      injection h2 with h2
      exact ⟨(written (m :: ls)).dropLast, by rw [← h2, List.dropLast_concat_getLast hne]⟩
    have ih := written_eq (ls := m :: ls) (by simp) hy
    rw [written_cons, hy, ← List.cons_append, ← List.append_assoc] at e
    have := List.append_cancel_right e
    rw [← this, ← ih]
    simp [List.intercalate]

theorem separated_cons (l : List Char) : ∀ ls : List (List Char), separated (l :: ls) = l ++ ls.flatMap (fun x => [',', ' '] ++ x)
  | [] => by simp [separated]
  | m :: ls => by
    rw [separated, separated_cons m ls]
    · simp
    · simp

mutual
theorem compact_oneLine : ∀ d : Dbg, d.Ok → d.compact = oneLine d
  | .word s, _ => by simp [oneLine, Dbg.compact]
  | .str s, _ => by simp [oneLine, Dbg.compact]
  | .unit, _ => by simp [oneLine, Dbg.compact]
  | .tuple n [], _ => by simp [oneLine, Dbg.compact]
  | .tuple n (f :: fs), h => by
    unfold Dbg.Ok at h
    have h2 := h.2.2
    unfold okItems at h2
    simp only [oneLine, Dbg.compact, oneLineItems, separated_cons, compactItems_oneLine fs h2.2, compact_oneLine f h2.1]
    simp
  | .struct n [], _ => by simp [oneLine, Dbg.compact]
  | .struct n ((k, f) :: fs), h => by
    unfold Dbg.Ok at h
    have h2 := h.2.2
    unfold okFields at h2
    simp only [oneLine, Dbg.compact, oneLineFields, separated_cons, compactFields_oneLine fs h2.2.2, compact_oneLine f h2.2.1]
    simp
  | .list [], _ => by simp [oneLine, Dbg.compact, oneLineItems, separated]
  | .list (x :: xs), h => by
    unfold Dbg.Ok at h
    unfold okItems at h
    simp only [oneLine, Dbg.compact, oneLineItems, separated_cons, compactItems_oneLine xs h.2, compact_oneLine x h.1]
    simp
  | .path n d, h => by
    unfold Dbg.Ok at h
    rw [oneLine, Dbg.compact, written_eq (layout_ne d) (pretty_layout d h.2)]
    simp
theorem compactItems_oneLine : ∀ fs : List Dbg, okItems fs →
    compactItems fs = (oneLineItems fs).flatMap (fun x => [',', ' '] ++ x)
  | [], _ => rfl
  | f :: fs, h => by
    unfold okItems at h
    simp only [compactItems, oneLineItems, compactItems_oneLine fs h.2, compact_oneLine f h.1]
    simp
theorem compactFields_oneLine : ∀ fs : List (String × Dbg), okFields fs →
    compactFields fs = (oneLineFields fs).flatMap (fun x => [',', ' '] ++ x)
  | [], _ => rfl
  | (k, f) :: fs, h => by
    unfold okFields at h
    simp only [compactFields, oneLineFields, compactFields_oneLine fs h.2.2, compact_oneLine f h.2.1]
    simp
end

variable {R : Type} [LawfulRead R] {T : StdText}

/-- C71: the `{:#?}` text of a decoded module is laid out by nesting. -/
theorem c71_module (hT : T.Ok) {r r' : R} {m : Module} (_h : decodeModule r = (.ok m, r')) :
    Spec.lines ((dbg T m).pretty ++ ['\n']) = layout (dbg T m) := by
  rw [← pretty_layout _ (module_ok hT m), lines_written _ (layout_whole _ (module_ok hT m))]

/-- C71: so is that of every error. -/
theorem c71_error (hT : T.Ok) (e : DecodeModuleError) : Spec.lines ((dbg T e).pretty ++ ['\n']) = layout (dbg T e) := by
  have : (dbg T e).Ok := Tells.ok hT e
  rw [← pretty_layout _ this, lines_written _ (layout_whole _ this)]

/-- C71: the `{:?}` text of a decoded module, on one line. -/
theorem c71_compact (hT : T.Ok) {r r' : R} {m : Module} (_h : decodeModule r = (.ok m, r')) :
    (dbg T m).compact = oneLine (dbg T m) := compact_oneLine _ (module_ok hT m)

/-- C71: and of every error. -/
theorem c71_compact_error (hT : T.Ok) (e : DecodeModuleError) : (dbg T e).compact = oneLine (dbg T e) :=
  compact_oneLine _ (Tells.ok hT e)

/-- C71: with `--verbose` the tool writes exactly these lines for a module. -/
theorem c71_verbose (hT : T.Ok) (io : IoError → List String) {input : Except IoError R} {m : Module} (h : Readable input m) :
    (cliMain (CliText.std T io) true input).stdout.toList = written (layout (dbg T m)) ∧
    Spec.lines (cliMain (CliText.std T io) true input).stdout.toList = layout (dbg T m) := by
  have hm := module_ok hT m
  have : (cliMain (CliText.std T io) true input).stdout.toList = written (layout (dbg T m)) := by
    rw [cli_ok h, pretty_layout _ hm]
    simp [CliText.std]
  exact ⟨this, by rw [this, lines_written _ (layout_whole _ hm)]⟩

theorem heading_text (a b : String) (d : List Char) :
    (a ++ b ++ if true = true then "\nDEBUG OUTPUT:\n" ++ String.ofList d ++ "\n" else "").toList =
      (a ++ b ++ if false = true then "\nDEBUG OUTPUT:\n" ++ String.ofList d ++ "\n" else "").toList ++
        ([] ++ '\n' :: ("DEBUG OUTPUT:".toList ++ '\n' :: (d ++ ['\n']))) := by
  have hl : "\nDEBUG OUTPUT:\n".toList = '\n' :: ("DEBUG OUTPUT:".toList ++ ['\n']) := by decide
  have h1 : "\n".toList = ['\n'] := rfl
  rw [if_pos rfl, if_neg (by decide)]
  simp only [String.toList_append, hl, h1, String.toList_ofList, String.append_empty, List.nil_append, List.append_assoc,
    List.cons_append]

/-- C71: when decoding fails, the tool's report with `--verbose` is the report without it, an empty line, a heading, and the lines
of the error. -/
theorem c71_report (hT : T.Ok) (io : IoError → List String) (hio : ∀ x, io x ≠ []) {r r' : R} {e : DecodeModuleError}
    (h : decodeModule r = (.err e, r')) :
    (cliMain (CliText.std T io) true (.ok r)).stderr.toList = (cliMain (CliText.std T io) false (.ok r)).stderr.toList ++
      written ([] :: "DEBUG OUTPUT:".toList :: layout (dbg T e)) := by
  have hn := LawfulText.ne_nil e io hio
  simp only [cliMain, h, abort]
  cases hc : ErrText.chain (CliText.std T io).io e with
  | nil => exact absurd hc hn
  | cons err sources =>
    rw [written_cons, written_cons, pretty_layout _ (Tells.ok hT e)]
    exact heading_text _ _ _

/-- The sample module, and an error, with the sample of the standard library's texts. -/
example (io : IoError → List String) : Spec.lines (cliMain (CliText.std stdSample io) true
    (.ok (Src.ofBytes (preamble ++ bytesA)) : Except IoError Src)).stdout.toList = layout (dbg stdSample (assemble secsA)) :=
  (c71_verbose stdSample_ok io ⟨_, rfl, bModA, rfl⟩).2
example : layout (dbg stdSample (DecodeModuleError.SectionOutOfOrder .Type .Import)) =
    ["SectionOutOfOrder {", "    current: Type,", "    previous: Import,", "}"].map String.toList := by decide

end Wadec
