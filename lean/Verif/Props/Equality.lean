import Verif.Props.Robust
import Verif.Proof.Equality

/-! C47: comparing decoded modules with `==`. -/

namespace Wadec

open LawfulRead Spec

/-- C47: `==` says `true` exactly for modules that are the same up to the sign of zero constants and
contain no NaN constant. -/
theorem c47_iff (a b : Module) :
    Module.eq a b = true ↔ NaNFree a ∧ unsignModule a = unsignModule b :=
  module_eq_iff a b

/-- C47: a module equals itself exactly if it contains no NaN constant. -/
theorem c47_refl (m : Module) : Module.eq m m = true ↔ NaNFree m := by
  simp [module_eq_iff]

/-- C47: decoding the same bytes twice gives modules that compare equal exactly if there is no NaN
constant in them. -/
theorem c47_decode {R S : Type} [LawfulRead R] [LawfulRead S] {r r' : R} {s s' : S} {m m' : Module}
    (ha : avail s = avail r) (hr : decodeModule r = (.ok m, r')) (hs : decodeModule s = (.ok m', s')) :
    Module.eq m m' = true ↔ NaNFree m := by
  have h1 := (module_sound hr).2
  have h2 := module_complete (r := s) (by rw [ha]; exact c17_sound hr) (module_sound hs).2
  obtain ⟨s1, h2⟩ := h2
  rw [hs] at h2
  cases h2
  exact c47_refl m

/-- C47: `==` is symmetric. -/
theorem c47_symm (a b : Module) (h : Module.eq a b = true) : Module.eq b a = true := by
  rw [module_eq_iff] at h ⊢
  refine ⟨?_, h.2.symm⟩
  have hb := (module_eq_iff a b).2 h
  exact naNFree_unsign.1 (h.2 ▸ naNFree_unsign.2 h.1)

/-- C47: and transitive. -/
theorem c47_trans (a b c : Module) (h1 : Module.eq a b = true) (h2 : Module.eq b c = true) :
    Module.eq a c = true := by
  rw [module_eq_iff] at h1 h2 ⊢
  exact ⟨h1.1, h1.2.trans h2.2⟩

/-! ### Instances -/

/-- A module with one global initialised by the given instruction. -/
def oneGlobal (i : Instr) : Module :=
  { Module.default with globals := [⟨⟨.Const, .Num .Float32⟩, [i]⟩] }

/-- `f32.const nan`, even inside a block. -/
example : Module.eq (oneGlobal (.Block .Empty [.F32Const 0x7FC00000]))
    (oneGlobal (.Block .Empty [.F32Const 0x7FC00000])) = false := by decide +kernel

/-- Infinity is not a NaN. -/
example : Module.eq (oneGlobal (.F32Const 0x7F800000)) (oneGlobal (.F32Const 0x7F800000)) = true := by
  decide +kernel

/-- The zeros are equal, but not the same. -/
example : Module.eq (oneGlobal (.F64Const 0x8000000000000000)) (oneGlobal (.F64Const 0)) = true ∧
    oneGlobal (.F64Const 0x8000000000000000) ≠ oneGlobal (.F64Const 0) := by
  refine ⟨by decide +kernel, fun h => ?_⟩
  simp [oneGlobal] at h

/-- The sample module equals its second decoding. -/
example : Module.eq (assemble secsA) (assemble secsA) = true := by decide +kernel

/-- A decoded module that differs from itself: one global, `f64.const nan`. -/
example : ∃ m r', decodeModule (Src.ofBytes (preamble ++ [0x06, 0x0D, 0x01, 0x7C, 0x00, 0x44, 0, 0, 0,
    0, 0, 0, 0xF8, 0x7F, 0x0B])) = (.ok m, r') ∧ Module.eq m m = false :=
  ⟨_, _, rfl, by decide +kernel⟩

end Wadec
