import Verif.Props.Depth
import Verif.Proof.Usage
import Verif.Proof.UsageNeeded

/-! C83: what is done with a decoded module calls itself no deeper than decoding it did.

`decodeModuleWithin d` (C66, C72) is `decode_module` with room for `d` nested calls of `Instruction::parse`; the definitions of
Verif/Model/Usage are the derived `Clone`, `PartialEq` and `Debug` and the drop glue with room for `d` nested calls of
themselves on an instruction. -/

namespace Wadec

open LawfulRead Spec

/-- C83: for an instruction: room for one call more than it has levels of nesting is enough; for `==` it is enough if one of
the two is that shallow. -/
theorem c83_instr (d : Nat) (i : Instr) (h : depthInstr i < d) :
    dropWithin d i = some () ∧ cloneWithin d i = some i ∧ (∀ t, dbgWithin t d i = some (i.dbg t)) ∧
    (∀ o, eqWithin d i o = some (Instr.eq i o)) ∧ ∀ o, eqWithin d o i = some (Instr.eq o i) :=
  ⟨drop_within d i h, clone_within d i h, fun t => dbg_within t d i h, fun o => eq_within d i o (.inl h),
    fun o => eq_within d o i (.inr h)⟩

theorem module_shallow {d : Nat} {m : Module} (h : depthModule m < d) : ∀ e ∈ m.exprs, Shallow d e :=
  fun _ he => .inl (Nat.lt_of_le_of_lt (exprs_depth he) h)

theorem module_use {d : Nat} {m : Module} (h : depthModule m < d) :
    m.dropWithin d = some () ∧ (∀ t, m.dbgWithin t d = some (Debug.dbg t m)) ∧
    (∀ o, Module.eqWithin d m o = some (Module.eq m o)) ∧ ∀ o, Module.eqWithin d o m = some (Module.eq o m) := by
  have hs := module_shallow h
  refine ⟨?_, fun t => ?_, fun o => module_eq_within d m o (.inl hs), fun o => module_eq_within d o m (.inr hs)⟩
  · simp only [Module.dropWithin]
    rw [each_within (g := fun _ => ()) _ fun e he => dropVec_within d e (hs e he)]
    rfl
  · simp only [Module.dbgWithin]
    rw [each_within (g := instrsDbg t) _ fun e he => dbgVec_within t d e (hs e he)]
    rfl

section
variable {R : Type} [LawfulRead R]

/-- C83: with the room in which a module has been decoded, it can be dropped, printed, and compared with any other. -/
theorem c83_module (d : Nat) (hd : 0 < d) {r r' : R} {m : Module} (h : decodeModuleWithin d r = (.ok m, r')) :
    m.dropWithin d = some () ∧ (∀ t, m.dbgWithin t d = some (Debug.dbg t m)) ∧
    (∀ o, Module.eqWithin d m o = some (Module.eq m o)) ∧ ∀ o, Module.eqWithin d o m = some (Module.eq o m) :=
  module_use ((module_fits hd _ _ _).1 h).2

/-- C83: so room for half as many calls as there are bytes, and one, is enough. -/
theorem c83_bytes (d : Nat) {r r' : R} {m : Module} (h : decodeModule r = (.ok m, r')) (hl : (avail r).length < 2 * d) :
    m.dropWithin d = some () ∧ (∀ t, m.dbgWithin t d = some (Debug.dbg t m)) ∧
    (∀ o, Module.eqWithin d m o = some (Module.eq m o)) ∧ ∀ o, Module.eqWithin d o m = some (Module.eq o m) :=
  c83_module d (by omega) (by rw [c66_module d r hl]; exact h)

end

/-- C83: and the room is needed: an instruction in `n` blocks is reached in the `n + 1`-st nested call, by all of them. -/
theorem c83_needed (i j : Instr) : ∀ n, dropWithin n (inBlocks i n) = none ∧ cloneWithin n (inBlocks i n) = none ∧
    (∀ t, dbgWithin t n (inBlocks i n) = none) ∧ eqWithin n (inBlocks i n) (inBlocks j n) = none
  | 0 => by simp [dropWithin, cloneWithin, dbgWithin, eqWithin]
  | n + 1 => by
    obtain ⟨h1, h2, h3, h4⟩ := c83_needed i j n
    simp [inBlocks, dropWithin, dropVecWithin, cloneWithin, cloneVecWithin, dbgWithin, dbgVecWithin, eqWithin, ofLength, eqItemsWithin,
      h1, h2, h3, h4, andWithin]

/-- C83: exactly: it runs out of room for `d` calls if and only if there is an instruction `d` levels inside the one it is called on. -/
theorem c83_exactly (d : Nat) (i : Instr) :
    (dropWithin d i = none ↔ Reaches d i) ∧ (cloneWithin d i = none ↔ Reaches d i) ∧
    (∀ t, dbgWithin t d i = none ↔ Reaches d i) ∧ (Instr.eq i i = true → (eqWithin d i i = none ↔ Reaches d i)) :=
  ⟨drop_none d i, clone_none d i, fun t => dbg_none t d i, eq_none_iff d i⟩

/-- C83: and for a module: if and only if there is one `d` levels inside an instruction of one of its expressions. -/
theorem c83_exactly_module (d : Nat) (m : Module) :
    (m.dropWithin d = none ↔ ∃ e, HasExpr e m ∧ ∃ i ∈ e, Reaches d i) ∧
    ∀ t, m.dbgWithin t d = none ↔ ∃ e, HasExpr e m ∧ ∃ i ∈ e, Reaches d i := by
  refine ⟨?_, fun t => ?_⟩
  · simp only [Module.dropWithin, Option.map_eq_none_iff, each_none, mem_exprs, dropVec_none, drop_none]
  · simp only [Module.dbgWithin, Option.map_eq_none_iff, each_none, mem_exprs, dbgVec_none, dbg_none]

/-- `block (loop end) end`: the loop is one level inside. -/
example : Reaches 1 (.Block .Empty [.Loop .Empty []]) ∧ dropWithin 1 (.Block .Empty [.Loop .Empty []]) = none :=
  have h : Reaches 1 (.Block .Empty [.Loop .Empty []]) := .down (.block (.head _)) .here
  ⟨h, (c83_exactly 1 _).1.2 h⟩

/-- C83: `==` does not look into vectors of different lengths. -/
theorem c83_lengths (bt bt' : BlockType) {is js : List Instr} (h : is.length ≠ js.length) :
    eqWithin 1 (.Block bt is) (.Block bt' js) = some false := by
  simp [eqWithin, ofLength, h, andWithin]
  split <;> simp_all

/-- The module with `block (block end) end` in the offset of a data segment, decoded in room for three calls. -/
example : ∃ m r', decodeModuleWithin 3 (Src.ofBytes deepOffset) = (.ok m, r') ∧ m.dropWithin 3 = some () := by
  obtain ⟨m, r', h, hm⟩ := deepOffset_ok
  have h1 := (c72_module 3 (by decide) h).1 (by rw [hm]; decide)
  exact ⟨m, r', h1, (c83_module 3 (by decide) h1).1⟩

example : depthInstr (inBlocks (.DataDrop ⟨0⟩) 3) < 4 ∧ cloneWithin 4 (inBlocks (.DataDrop ⟨0⟩) 3) = some (inBlocks (.DataDrop ⟨0⟩) 3) ∧
    cloneWithin 3 (inBlocks (.DataDrop ⟨0⟩) 3) = none :=
  ⟨by decide, (c83_instr 4 _ (by decide)).2.1, (c83_needed _ (.DataDrop ⟨0⟩) 3).2.1⟩

/-- Comparing a deep instruction with a shallow one does not take more than the shallow one. -/
example : eqWithin 1 (inBlocks (.DataDrop ⟨0⟩) 3) (.DataDrop ⟨0⟩) = some false :=
  (c83_instr 1 (.DataDrop ⟨0⟩) (by decide)).2.2.2.2 _

end Wadec
