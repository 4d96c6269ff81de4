import Verif.Spec.Instr

/-! Positions inside an expression, for the properties that say where decoding stops. -/

namespace Wadec.Spec

/-- What the innermost open construct is at a position in an expression. -/
inductive Ctx where
  /-- the expression itself: its instructions, ended by `end` -/
  | expr
  | block
  | loop
  /-- between `if` and its `else` or `end` -/
  | then
  /-- between the `else` of an `if` and its `end` -/
  | else
  | try
  deriving DecidableEq, Repr

/-- `Opener c o`: the bytes `o` open a construct and lead to a position directly inside it (before
its first instruction, or, for `else`, after a complete then-branch and the `else`). -/
inductive Opener : Ctx → Bytes → Prop
  | block {b : Bytes} {bt : BlockType} : BBlockType b bt → Opener .block (0x02 :: b)
  | loop {b : Bytes} {bt : BlockType} : BBlockType b bt → Opener .loop (0x03 :: b)
  | then {b : Bytes} {bt : BlockType} : BBlockType b bt → Opener .then (0x04 :: b)
  | else {b b2 : Bytes} {bt : BlockType} {is : List Instr} : BBlockType b bt → BInstrs b2 is →
      Opener .else (0x04 :: (b ++ (b2 ++ [0x05])))
  | try {b b2 : Bytes} {bt : BlockType} {cs : List Catch} : BBlockType b bt → BList BCatch b2 cs →
      Opener .try (0x1F :: (b ++ b2))

/-- `Within c0 c bs`: reading `bs` from a position directly inside `c0` leads, through complete
instructions and openers of constructs that are still open, to an instruction boundary directly
inside the construct `c`. -/
inductive Within : Ctx → Ctx → Bytes → Prop
  | here {c : Ctx} {bs : Bytes} {is : List Instr} : BInstrs bs is → Within c c bs
  | enter {c0 c1 c : Ctx} {pre o bs : Bytes} {is : List Instr} : BInstrs pre is → Opener c1 o →
      Within c1 c bs → Within c0 c (pre ++ (o ++ bs))

/-- No instruction, and neither `end` nor `else`, starts with the byte `b`. -/
def UnassignedByte (b : UInt8) : Prop :=
  b ≠ 0x0B ∧ b ≠ 0x05 ∧ ¬ ∃ bs i, BInstr (b :: bs) i

/-- No instruction has the opcode `op`. -/
def Unassigned (op : Opcode) : Prop := ¬ ∃ imms i, Leaf op imms i

end Wadec.Spec
