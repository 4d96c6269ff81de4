import Verif.Model.Copies

/-! C85: the clone of a value is that value, for every type that derives `Clone`. -/

namespace Wadec

/-- The clone of a value is that value. -/
class Cloned (α : Type) [RClone α] : Prop where
  same : ∀ a : α, RClone.clone a = a

theorem cloneVec_same {α : Type} [RClone α] [Cloned α] : ∀ l : List α, cloneVec l = l
  | [] => rfl
  | a :: as => by rw [cloneVec, Cloned.same, cloneVec_same as]

instance {α : Type} [RClone α] [Cloned α] : Cloned (List α) := ⟨cloneVec_same⟩
instance {α : Type} [RClone α] [Cloned α] : Cloned (Option α) := ⟨fun
  | none => rfl
  | some a => congrArg some (Cloned.same a)⟩

instance : Cloned UInt32 := ⟨fun _ => rfl⟩
instance : Cloned UInt64 := ⟨fun _ => rfl⟩
instance : Cloned Int32 := ⟨fun _ => rfl⟩
instance : Cloned Int64 := ⟨fun _ => rfl⟩
instance : Cloned Bool := ⟨fun _ => rfl⟩
instance : Cloned Bytes16 := ⟨fun _ => rfl⟩
instance : Cloned AddrType := ⟨fun _ => rfl⟩
instance : Cloned NumType := ⟨fun _ => rfl⟩
instance : Cloned VecType := ⟨fun _ => rfl⟩
instance : Cloned AbsHeapType := ⟨fun _ => rfl⟩
instance : Cloned HeapType := ⟨fun _ => rfl⟩
instance : Cloned RefType := ⟨fun _ => rfl⟩
instance : Cloned ValType := ⟨fun _ => rfl⟩
instance : Cloned Mut := ⟨fun _ => rfl⟩
instance : Cloned PackType := ⟨fun _ => rfl⟩
instance : Cloned StorageType := ⟨fun _ => rfl⟩
instance : Cloned FieldType := ⟨fun _ => rfl⟩
instance : Cloned TagType := ⟨fun _ => rfl⟩
instance : Cloned Memarg := ⟨fun _ => rfl⟩
instance : Cloned LaneIdx := ⟨fun _ => rfl⟩
instance : Cloned SectionKind := ⟨fun _ => rfl⟩
instance : Cloned TypeIdx := ⟨fun _ => rfl⟩
instance : Cloned FuncIdx := ⟨fun _ => rfl⟩
instance : Cloned TableIdx := ⟨fun _ => rfl⟩
instance : Cloned MemIdx := ⟨fun _ => rfl⟩
instance : Cloned GlobalIdx := ⟨fun _ => rfl⟩
instance : Cloned ElemIdx := ⟨fun _ => rfl⟩
instance : Cloned DataIdx := ⟨fun _ => rfl⟩
instance : Cloned LocalIdx := ⟨fun _ => rfl⟩
instance : Cloned LabelIdx := ⟨fun _ => rfl⟩
instance : Cloned TagIdx := ⟨fun _ => rfl⟩
instance : Cloned PlainOp := ⟨fun _ => rfl⟩
instance : Cloned MemOp := ⟨fun _ => rfl⟩
instance : Cloned MemLaneOp := ⟨fun _ => rfl⟩
instance : Cloned LaneOp := ⟨fun _ => rfl⟩

instance : Cloned BlockType := ⟨fun a => by cases a <;> simp only [RClone.clone]⟩
instance : Cloned Catch := ⟨fun a => by cases a <;> simp only [RClone.clone]⟩
instance : Cloned CompType := ⟨fun a => by
  cases a <;> simp only [RClone.clone, cloneVec_same]⟩
instance : Cloned SubType := ⟨fun a => by
  cases a with | mk f l c => exact congr (congr (congrArg SubType.mk (Cloned.same f)) (Cloned.same l)) (Cloned.same c)⟩
instance : Cloned RecType := ⟨fun a => by
  cases a; simp only [RClone.clone, cloneVec_same]⟩

mutual
theorem cloneInstr_same (i : Instr) : cloneInstr i = i := by
    cases i with
    | Block bt b => exact (cloneInstr.eq_def _).trans (by simp only [Cloned.same, cloneInstrs_same b])
    | Loop bt b => exact (cloneInstr.eq_def _).trans (by simp only [Cloned.same, cloneInstrs_same b])
    | If bt b e => exact (cloneInstr.eq_def _).trans (by simp only [Cloned.same, cloneInstrs_same b, cloneInstrsOpt_same e])
    | TryTable bt cs b => exact (cloneInstr.eq_def _).trans (by simp only [Cloned.same, cloneInstrs_same b])
    | _ => exact (cloneInstr.eq_def _).trans (by simp only [Cloned.same])
theorem cloneInstrs_same : ∀ is : List Instr, cloneInstrs is = is
  | [] => by rw [cloneInstrs]
  | i :: is => by rw [cloneInstrs, cloneInstr_same i, cloneInstrs_same is]
theorem cloneInstrsOpt_same : ∀ o : Option (List Instr), cloneInstrsOpt o = o
  | none => by rw [cloneInstrsOpt]
  | some is => by rw [cloneInstrsOpt, cloneInstrs_same is]
end

instance : Cloned Instr := ⟨cloneInstr_same⟩

end Wadec
