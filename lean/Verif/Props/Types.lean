import Verif.Props.Integers
import Verif.Proof.Block

/-! C11–C14: types. -/

namespace Wadec

open LawfulRead Spec

section
variable {R : Type} [LawfulRead R]

/-- C11. -/
theorem c11_valtype : Decodes (ValType.decode : Dec R _ _) BValType :=
  Decodes.of ValType.sound fun _ _ => ValType.runs
theorem c11_reftype : Decodes (RefType.decode : Dec R _ _) BRefType :=
  Decodes.of RefType.sound fun _ _ => RefType.runs
theorem c11_heaptype : Decodes (HeapType.decode : Dec R _ _) BHeapType :=
  Decodes.of HeapType.sound fun _ _ => HeapType.runs
theorem c11_absheaptype : Decodes (AbsHeapType.decode : Dec R _ _) BAbsHeapType :=
  Decodes.of AbsHeapType.sound fun _ _ => AbsHeapType.runs

/-- C12. -/
theorem c12_rectype : Decodes (RecType.decode : Dec R _ _) BRecType :=
  Decodes.of RecType.sound fun _ _ => RecType.runs
theorem c12_subtype : Decodes (SubType.decode : Dec R _ _) BSubType :=
  Decodes.of SubType.sound fun _ _ => SubType.runs
theorem c12_comptype : Decodes (CompType.decode : Dec R _ _) BCompType :=
  Decodes.of CompType.sound fun _ _ => CompType.runs
theorem c12_fieldtype : Decodes (decodeFieldType : Dec R _ _) BFieldType :=
  Decodes.of fieldType_sound fun _ _ => fieldType_runs
theorem c12_resulttype : Decodes (decodeResultType : Dec R _ _) BResultType :=
  Decodes.of resultType_sound fun _ _ => resultType_runs

/-- C13. -/
theorem c13_limits : Decodes (parseLimits : Dec R _ _) BLimits :=
  Decodes.of limits_sound fun _ _ => limits_runs
theorem c13_tabletype : Decodes (TableType.decode : Dec R _ _) BTableType :=
  Decodes.of TableType.sound fun _ _ => TableType.runs
theorem c13_memtype : Decodes (parseMemType : Dec R _ _) BMemType :=
  Decodes.of memType_sound fun _ _ => memType_runs
theorem c13_globaltype : Decodes (GlobalType.decode : Dec R _ _) BGlobalType :=
  Decodes.of GlobalType.sound fun _ _ => GlobalType.runs
theorem c13_tagtype : Decodes (TagType.decode : Dec R _ _) BTagType :=
  Decodes.of TagType.sound fun _ _ => TagType.runs
theorem c13_externtype : Decodes (ExternType.decode : Dec R _ _) BExternType :=
  Decodes.of ExternType.sound fun _ _ => ExternType.runs

/-- C13: the flag byte decides about the maximum and the address type. -/
theorem c13_limits_flag {r r' : R} {l : Limits} (h : parseLimits r = (.ok l, r')) :
    ∃ flag rest, avail r = flag :: rest ∧ flag ∈ [0x00, 0x01, 0x04, 0x05] ∧
      (l.max.isSome = true ↔ flag = 0x01 ∨ flag = 0x05) ∧
      (l.address_type = .I64 ↔ flag = 0x04 ∨ flag = 0x05) := by
  obtain ⟨bs, hb, ha, _⟩ := (c13_limits (R := R)).1 r l r' h
  cases hb <;> exact ⟨_, _, by rw [ha]; rfl, by simp, by simp, by simp⟩

/-- C14. -/
theorem c14_blocktype : Decodes (BlockType.decode : Dec R _ _) BBlockType :=
  Decodes.of BlockType.sound fun _ _ => BlockType.runs

end

/-! ### Concrete cases -/

-- C11: (ref null 128), with the type index in two bytes
example : BValType [0x63, 0x80, 0x01] (.Ref ⟨true, .TypeIdx 128⟩) :=
  .ref (.refNull (.idx ((BS_enc (by decide) (by decide) (by decide)).2 ⟨2, by decide⟩)))
-- C12: (sub (struct (field (mut i8)))), and a group of two
example : (RecType.decode (Src.ofBytes [0x50, 0x00, 0x5F, 0x01, 0x78, 0x01])).1 =
    .ok ⟨[⟨false, [], .Struct [⟨.Var, .PackType .I8⟩]⟩]⟩ := by rfl
example : (RecType.decode (Src.ofBytes
    [0x4E, 0x02, 0x60, 0x00, 0x00, 0x4F, 0x01, 0x00, 0x5E, 0x7F, 0x00])).1 =
    .ok ⟨[⟨true, [], .Func [] []⟩, ⟨true, [⟨0⟩], .Array ⟨.Const, .ValType (.Num .Int32)⟩⟩]⟩ := by rfl
-- C13: 64-bit limits with a maximum
example : BLimits [0x05, 0x01, 0x80, 0x01] ⟨.I64, 1, some 128⟩ :=
  .i64MinMax (b1 := [0x01]) (b2 := [0x80, 0x01]) ((c07_u64 1 _).2 ⟨1, by decide⟩)
    ((c07_u64 128 _).2 ⟨2, by decide⟩)
-- C14: the type index 99 needs two bytes (one byte 0x63 would be -29), the value type takes one
example : (BlockType.decode (Src.ofBytes [0xE3, 0x00, 0x7F])).1 = .ok (.I 99) := by rfl
example : (BlockType.decode (Src.ofBytes [0x7F, 0xE3, 0x00])).1 = .ok (.T (.Num .Int32)) := by rfl

end Wadec
