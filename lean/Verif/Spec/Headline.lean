import Verif.Model.Types
import Verif.Model.Module

/-! C68: what the report of the tool says about the place of an error. -/

namespace Wadec.Spec

/-- The message about a failure inside a section of kind `k` (custom sections have two). -/
def headline : SectionKind → List String
  | .Custom => ["failed decoding custom section name", "failed reading custom section contents"]
  | .Type => ["failed decoding Type section"]
  | .Import => ["failed decoding Import section"]
  | .Function => ["failed decoding Function section"]
  | .Table => ["failed decoding Table section"]
  | .Memory => ["failed decoding Memory section"]
  | .Tag => ["failed decoding Tag section"]
  | .Global => ["failed decoding Global section"]
  | .Export => ["failed decoding Export section"]
  | .Start => ["failed decoding Start section"]
  | .Element => ["failed decoding Element section"]
  | .DataCount => ["failed decoding Data Segment count"]
  | .Code => ["failed decoding Code section"]
  | .Data => ["failed decoding Data section"]

/-- The text begins with these lines. -/
def Begins (text : String) (ls : List String) : Prop :=
  (ls.flatMap fun l => l.toList ++ ['\n']) <+: text.toList

/-- The first line reports a failure inside a section of kind `k`. -/
def Blames (text : String) (k : SectionKind) : Prop :=
  ∃ h ∈ headline k, Begins text ["ERROR: " ++ h]

/-- The first lines report a failure of entry `i` of a section of kind `k`. -/
def BlamesEntry (text : String) (k : SectionKind) (i : Nat) : Prop :=
  ∃ h ∈ headline k, Begins text
    ["ERROR: " ++ h, "", "Caused by:", "    0: failed parsing vector element at position " ++ toString i]

end Wadec.Spec
