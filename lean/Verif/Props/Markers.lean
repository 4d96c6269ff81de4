import Verif.Props.Robust
import Verif.Proof.MarkModule

/-! C41: errors about unknown bytes and numbers report what the input contains, and are right that it
is not allowed there.

`mark e` (Spec/MarkOf.lean) is the complaint found in the error value `e` by following its payloads,
with the value it carries.  `Mark.Justified` (Spec/Mark.lean) is stated with the grammar only. -/

namespace Wadec

open Spec LawfulRead MarkOf

section
variable {R : Type} [LawfulRead R]

/-- C41: the reported value is spelled in the input, nothing of the sort expected there starts with
these bytes, and nothing behind them has been read. -/
theorem c41_module {r r' : R} {e : DecodeModuleError} {m : Mark}
    (h : decodeModule r = (.err e, r')) (hm : mark e = some m) :
    ∃ pre enc rest, avail r = pre ++ (enc ++ rest) ∧ enc ≠ [] ∧ m.Justified enc ∧
      (m.exact → rest = avail r') := by
  obtain ⟨pre, enc, h1, h2, h3, rest, h4⟩ := module_blame r e r' m h hm
  rw [List.nil_append, List.append_assoc] at h4
  refine ⟨pre, enc, rest, h4, h2, h1, fun hx => ?_⟩
  obtain ⟨cons, ha, hc⟩ := h3 hx
  rw [List.nil_append] at hc
  have := adv_avail ha
  rw [hc, h4, List.append_assoc] at this
  exact List.append_cancel_left (List.append_cancel_left this)

/-- C41 for a single expression. -/
theorem c41_expr {r r' : R} {e : ParseExpressionError} {m : Mark}
    (h : decodeExpr r = (.err e, r')) (hm : mark e = some m) :
    ∃ pre enc rest, avail r = pre ++ (enc ++ rest) ∧ enc ≠ [] ∧ m.Justified enc ∧
      (m.exact → rest = avail r') := by
  obtain ⟨pre, enc, h1, h2, h3, rest, h4⟩ := (expr_bl (acc := [])).2 r e r' m h hm
  rw [List.nil_append, List.append_assoc] at h4
  refine ⟨pre, enc, rest, h4, h2, h1, fun hx => ?_⟩
  obtain ⟨cons, ha, hc⟩ := h3 hx
  rw [List.nil_append] at hc
  have := adv_avail ha
  rw [hc, h4, List.append_assoc] at this
  exact List.append_cancel_left (List.append_cancel_left this)

/-- C41: the byte named by `DecodeValTypeOrPackType` is the first byte of the storage type, and is
not that of a packed type. -/
theorem c41_storage {r r' : R} {b : UInt8} {e : DecodeValTypeError}
    (h : decodeStorageType r = (.err (.DecodeValTypeOrPackType b e), r')) :
    (∃ t, avail r = b :: t) ∧ b ≠ 0x77 ∧ b ≠ 0x78 := by
  unfold decodeStorageType at h
  rcases Dec.bind_err h with h | ⟨v, r1, h1, h⟩
  · obtain ⟨_, h0, _⟩ := Dec.mapErr_err h
    cases h0
  · have h2 := (Sound.mapErr (f := DecodeStorageTypeError.ReadMarkerByte) Sound.readByte) _ _ _ h1
    cases hf : fromMarker PackType.markers v with
    | some p => rw [hf] at h; cases h
    | none =>
      rw [hf] at h
      rcases Dec.bind_err h with h | ⟨_, _, _, h⟩
      · obtain ⟨_, h0, _⟩ := Dec.mapErr_err h
        cases h0
        refine ⟨?_, ?_, ?_⟩
        · obtain ⟨bs, ha, rfl⟩ := h2
          exact ⟨_, adv_avail ha⟩
        · rintro rfl; cases hf
        · rintro rfl; cases hf
      · cases h

end

/-! ### Instances -/

/-- A memory type whose limits have the flag byte 9, in the second position of the section. -/
def badLimits : Bytes := preamble ++ [0x05, 0x05, 0x02, 0x00, 0x01, 0x09, 0x01]

example : ∃ e r', decodeModule (Src.ofBytes badLimits) = (.err e, r') ∧ mark e = some (.limits 9) ∧
    avail r' = [0x01] := by
  refine ⟨_, _, rfl, ?_, ?_⟩ <;> rfl

/-- An opcode FD 999 inside nested blocks. -/
example : ∃ e r', decodeExpr (Src.ofBytes [0x02, 0x40, 0x03, 0x40, 0xFD, 0xE7, 0x07, 0x0B]) =
    (.err e, r') ∧ mark e = some (.opcode (.fd 999)) ∧ avail r' = [0x0B] := by
  refine ⟨_, _, rfl, ?_, ?_⟩ <;> rfl

/-- A wrong value type is reported as such, although it is found while reading an abstract heap
type. -/
example : ∃ e r', decodeModule (Src.ofBytes (preamble ++ [0x06, 0x05, 0x01, 0x01, 0x00, 0x41, 0x0B])) =
    (.err e, r') ∧ mark e = some (.valType 0x01) := by
  refine ⟨_, _, rfl, ?_⟩ <;> rfl

/-- A block type −5 … and the heap type −5 inside a block type. -/
example : ∃ e r', decodeExpr (Src.ofBytes [0x02, 0x7A, 0x0B]) = (.err e, r') ∧
    mark e = some (.blockType (-6)) := by
  refine ⟨_, _, rfl, ?_⟩ <;> rfl
example : ∃ e r', decodeExpr (Src.ofBytes [0x02, 0x64, 0x40, 0x0B]) = (.err e, r') ∧
    mark e = some (.blockRef (-28)) := by
  refine ⟨_, _, rfl, ?_⟩ <;> rfl
example : ∃ e r', decodeStorageType (Src.ofBytes [0x41, 0x00]) = (.err (.DecodeValTypeOrPackType 0x41 e), r') ∧
    mark e = some (.valType 0x41) := by
  refine ⟨_, _, rfl, ?_⟩ <;> rfl

end Wadec
