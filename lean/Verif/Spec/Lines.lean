/-! C67: lines of a text. -/

namespace Wadec.Spec

/-- The lines of a text; each ends with a line break, the last one may also end with the text. -/
def lines : List Char → List (List Char)
  | [] => []
  | c :: cs =>
    if c = '\n' then [] :: lines cs
    else match lines cs with
      | [] => [[c]]
      | l :: ls => (c :: l) :: ls

/-- A text without line breaks, and not empty. -/
def OneLine (s : String) : Prop := s.toList ≠ [] ∧ '\n' ∉ s.toList

example : lines "a\nbc\n\nd".toList = ["a".toList, "bc".toList, [], "d".toList] := by decide
example : lines "a\nbc\n".toList = ["a".toList, "bc".toList] := by decide

end Wadec.Spec
