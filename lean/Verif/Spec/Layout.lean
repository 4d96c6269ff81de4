import Verif.Model.Debug
import Verif.Spec.Lines

/-! How a debug text is laid out (C71), line by line. -/

namespace Wadec.Spec

/-- Every line four columns to the right. -/
def shifted (ls : List (List Char)) : List (List Char) := ls.map (fun l => [' ', ' ', ' ', ' '] ++ l)

/-- A comma behind the last line. -/
def withComma : List (List Char) → List (List Char)
  | [] => []
  | [l] => [l ++ [',']]
  | l :: ls => l :: withComma ls

/-- A label before the first line. -/
def withLabel (s : List Char) : List (List Char) → List (List Char)
  | [] => []
  | l :: ls => (s ++ l) :: ls

mutual
/-- The lines of a value: what has no parts is one line; what has parts is an opening line, the lines of the parts, each part with a
comma and four columns to the right, and a closing line. -/
def layout : Dbg → List (List Char)
  | .word s => [s.toList]
  | .str s => ['"' :: (s.toList ++ ['"'])]
  | .unit => [['(', ')']]
  | .tuple n [] => [n.toList]
  | .tuple n (f :: fs) => (n.toList ++ ['(']) :: (layoutItems (f :: fs) ++ [[')']])
  | .struct n [] => [n.toList]
  | .struct n (f :: fs) => (n.toList ++ [' ', '{']) :: (layoutFields (f :: fs) ++ [['}']])
  | .list [] => [['[', ']']]
  | .list (x :: xs) => ['['] :: (layoutItems (x :: xs) ++ [[']']])
  | .path n d => withLabel (n.toList ++ [':', ':']) (layout d)
def layoutItems : List Dbg → List (List Char)
  | [] => []
  | f :: fs => shifted (withComma (layout f)) ++ layoutItems fs
def layoutFields : List (String × Dbg) → List (List Char)
  | [] => []
  | (k, f) :: fs => shifted (withComma (withLabel (k.toList ++ [':', ' ']) (layout f))) ++ layoutFields fs
end

/-- The parts with a comma and a space between them. -/
def separated : List (List Char) → List Char
  | [] => []
  | [l] => l
  | l :: ls => l ++ [',', ' '] ++ separated ls

mutual
/-- A value on one line (what the error of an element of a list contains is laid out all the same). -/
def oneLine : Dbg → List Char
  | .word s => s.toList
  | .str s => '"' :: (s.toList ++ ['"'])
  | .unit => ['(', ')']
  | .tuple n fs => if fs = [] then n.toList else n.toList ++ ['('] ++ separated (oneLineItems fs) ++ [')']
  | .struct n fs => if fs = [] then n.toList else n.toList ++ [' ', '{', ' '] ++ separated (oneLineFields fs) ++ [' ', '}']
  | .list xs => ['['] ++ separated (oneLineItems xs) ++ [']']
  | .path n d => n.toList ++ [':', ':'] ++ ['\n'].intercalate (layout d)
def oneLineItems : List Dbg → List (List Char)
  | [] => []
  | f :: fs => oneLine f :: oneLineItems fs
def oneLineFields : List (String × Dbg) → List (List Char)
  | [] => []
  | (k, f) :: fs => (k.toList ++ [':', ' '] ++ oneLine f) :: oneLineFields fs
end

example : layout (.tuple "Some" [.struct "P" [("x", .word "1"), ("y", .list [])]]) =
    ["Some(", "    P {", "        x: 1,", "        y: [],", "    },", ")"].map String.toList := by decide
example : oneLine (.tuple "Some" [.struct "P" [("x", .word "1"), ("y", .list [])]]) = "Some(P { x: 1, y: [] })".toList := by
  decide

end Wadec.Spec
