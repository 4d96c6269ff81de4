import Verif.Props.Depth
import Verif.Proof.DropsNone

/-! C84: decoding that fails drops what it had decoded, and this too takes no more of the call stack.

`decodeModuleDropping d q` (Model/Drops) is `decode_module` with room for `d` nested calls of `Instruction::parse` and for `q` of the drop
glue of `Instruction`, counted from the outermost on and used up by `Instruction::parse` as well: what a function holds when it returns an
error is dropped. -/

namespace Wadec

open LawfulRead Spec

section
variable {R : Type} [LawfulRead R]

/-- C84: dropping what was decoded before an error never exceeds the room the decoder needs itself. -/
theorem c84_module (d q : Nat) (hd : 0 < d) (hq : d ≤ q) (r : R) : decodeModuleDropping d q r = decodeModuleWithin d r := by
  rw [module_drops hd hq]

/-- C84: so for all input, whether it is decoded or rejected, room for half as many calls as there are bytes, and one, is enough. -/
theorem c84_bytes (d : Nat) (r : R) (h : (avail r).length < 2 * d) : decodeModuleDropping d d r = decodeModule r := by
  rw [c84_module d d (by omega) (Nat.le_refl _), c66_module d r h]

/-- C84: decoding that succeeds drops no instruction: it does without any room for it, and gives the same module. -/
theorem c84_success (d : Nat) (r : R) (m : Module) (r' : R) :
    decodeModuleDropping d 0 r = (.ok m, r') ↔ decodeModuleWithin d r = (.ok m, r') := module_likewise r m r'

end

/-- A module with a table, a global, a function, an element and a data segment with expressions. -/
def withExprs : Bytes := preamble ++ [1, 4, 1, 0x60, 0, 0, 3, 2, 1, 0, 4, 9, 1, 0x40, 0, 0x70, 0, 0, 0xD0, 0x70, 0x0B, 6, 6, 1, 0x7F, 0, 0x41, 0, 0x0B,
  9, 6, 1, 0, 0x41, 0, 0x0B, 0, 10, 5, 1, 3, 0, 1, 0x0B, 11, 6, 1, 0, 0x41, 0, 0x0B, 0]

example : (match decodeModuleDropping 1 0 (Src.ofBytes withExprs) with | (.ok m, _) => m.exprs.length | _ => 0) = 5 := by decide +kernel

/-! In each of the places where something is held, it is dropped: with room for one call less the drop glue runs out. -/

/-- the result as far as it concerns the room: an error, or no room left -/
def roomOf (q : Nat) (bs : Bytes) : Option Bool :=
  match (decodeModuleDropping 3 q (Src.ofBytes (preamble ++ bs))).1 with
  | .err _ => some true
  | .fuel => some false
  | _ => none

/-- Inputs that are rejected, with the room that dropping takes. -/
def dropCases : List (Nat × Bytes) := [
  (1, [6, 0x14, 1, 0x7F, 0, 1]), -- `nop`, and the next instruction is missing
  (1, [6, 0x14, 1, 0x7F, 0, 1, 5]), -- `nop else`
  (2, [6, 0x14, 1, 0x7F, 0, 2, 0x40, 1]), -- `block nop`
  (2, [6, 0x14, 1, 0x7F, 0, 2, 0x40, 1, 5]), -- `block nop else`
  (2, [6, 0x14, 1, 0x7F, 0, 4, 0x40, 1, 5]), -- `if nop else`
  (2, [6, 0x14, 1, 0x7F, 0, 4, 0x40, 5, 1, 5]), -- `if else nop else`
  (2, [6, 0x14, 1, 0x7F, 0, 0x1F, 0x40, 0, 1]), -- `try_table nop`
  (3, [6, 0x14, 1, 0x7F, 0, 2, 0x40, 3, 0x40, 1]), -- `block loop nop`
  (2, [6, 0x14, 1, 0x7F, 0, 2, 0x40, 3, 0x40, 0x0B, 0x0B]), -- `block loop end end`: dropped after it is complete
  (1, [6, 0x14, 2, 0x7F, 0, 1, 0x0B]), -- a global, the next one is missing
  (1, [4, 0x14, 2, 0x40, 0, 0x70, 0, 0, 1, 0x0B]), -- a table, the next one is missing
  (1, [9, 0x14, 1, 0, 1, 0x0B]), -- element segments: the offset, something is missing after it
  (1, [9, 0x14, 1, 2, 0, 1, 0x0B]),
  (1, [9, 0x14, 1, 2, 0, 1, 0x0B, 0]),
  (1, [9, 0x14, 1, 4, 1, 0x0B]),
  (1, [9, 0x14, 1, 6, 0, 1, 0x0B]),
  (1, [9, 0x14, 1, 6, 0, 1, 0x0B, 0x70]),
  (1, [9, 0x14, 1, 5, 0x70, 2, 1, 0x0B]), -- an item, the next one is missing
  (1, [9, 0x14, 2, 0, 1, 0x0B, 0]), -- a segment with an offset, the next one is missing
  (1, [9, 0x14, 2, 1, 0, 1, 0]), -- a segment with an item, the next one is missing
  (1, [0x0A, 0x14, 1, 4, 0, 1, 0x0B, 0]), -- a function that is shorter than its size
  (1, [0x0A, 0x14, 2, 3, 0, 1, 0x0B]), -- a function, the next one is missing
  (1, [0x0A, 5, 1, 3, 0, 1, 0x0B]), -- a function too many
  (1, [0x0B, 0x14, 1, 0, 1, 0x0B]), -- data segments: the offset, the bytes are missing
  (1, [0x0B, 0x14, 1, 2, 0, 1, 0x0B]),
  (1, [0x0B, 0x14, 2, 0, 1, 0x0B, 0]), -- a segment, the next one is missing
  (1, [0x0C, 1, 2, 0x0B, 5, 1, 0, 1, 0x0B, 0]), -- a segment, two were announced
  (1, [6, 5, 1, 0x7F, 0, 1, 0x0B, 0x11]), -- a global section, and no section after it
  (1, [6, 5, 1, 0x7F, 0, 1, 0x0B, 6, 0]), -- another one after it
  (1, [6, 5, 1, 0x7F, 0, 1, 0x0B, 7, 1]), -- a section that breaks off
  (1, [6, 6, 1, 0x7F, 0, 1, 0x0B, 0]), -- a global section that is shorter than its size
  (1, [3, 2, 1, 0, 6, 5, 1, 0x7F, 0, 1, 0x0B])] -- a function without its code

example : dropCases.map (fun c => roomOf c.1 c.2) = dropCases.map (fun _ => some true) := by decide +kernel

example : dropCases.map (fun c => roomOf (c.1 - 1) c.2) = dropCases.map (fun _ => some false) := by decide +kernel

end Wadec
