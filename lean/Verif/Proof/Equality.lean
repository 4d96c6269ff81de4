import Verif.Model.Equality
import Verif.Spec.Equality

/-! `==` on decoded values (C47). -/

namespace Wadec

open Spec

/-! ### Floats -/

theorem mask32 (x : UInt32) : (x &&& 0x7FFFFFFF).toNat = x.toNat % 2 ^ 31 := by
  rw [UInt32.toNat_and]
  exact Nat.and_two_pow_sub_one_eq_mod _ 31

theorem mask64 (x : UInt64) : (x &&& 0x7FFFFFFFFFFFFFFF).toNat = x.toNat % 2 ^ 63 := by
  rw [UInt64.toNat_and]
  exact Nat.and_two_pow_sub_one_eq_mod _ 63

theorem nan32 (x : UInt32) : (x &&& 0x7FFFFFFF) > 0x7F800000 ↔ IsNaN32 x := by
  rw [gt_iff_lt, UInt32.lt_iff_toNat_lt, mask32]
  have h : (0x7F800000 : UInt32).toNat = 0x7F800000 := rfl
  rw [h]
  unfold IsNaN32
  have := x.toNat_lt
  omega

theorem nan64 (x : UInt64) : (x &&& 0x7FFFFFFFFFFFFFFF) > 0x7FF0000000000000 ↔ IsNaN64 x := by
  rw [gt_iff_lt, UInt64.lt_iff_toNat_lt, mask64]
  have h : (0x7FF0000000000000 : UInt64).toNat = 0x7FF0000000000000 := rfl
  rw [h]
  unfold IsNaN64
  have := x.toNat_lt
  omega

theorem zero32 (x : UInt32) : (x &&& 0x7FFFFFFF) = 0 ↔ x = 0 ∨ x = 0x80000000 := by
  have e : ∀ a b : UInt32, a = b ↔ a.toNat = b.toNat := fun a b => UInt32.toNat_inj.symm
  rw [e, mask32, e x, e x]
  have h1 : (0x80000000 : UInt32).toNat = 0x80000000 := rfl
  have h2 : (0 : UInt32).toNat = 0 := rfl
  rw [h1, h2]
  have := x.toNat_lt
  omega

theorem zero64 (x : UInt64) : (x &&& 0x7FFFFFFFFFFFFFFF) = 0 ↔ x = 0 ∨ x = 0x8000000000000000 := by
  have e : ∀ a b : UInt64, a = b ↔ a.toNat = b.toNat := fun a b => UInt64.toNat_inj.symm
  rw [e, mask64, e x, e x]
  have h1 : (0x8000000000000000 : UInt64).toNat = 0x8000000000000000 := rfl
  have h2 : (0 : UInt64).toNat = 0 := rfl
  rw [h1, h2]
  have := x.toNat_lt
  omega

theorem unsign32_eq (a b : UInt32) :
    unsign32 a = unsign32 b ↔ ((a = 0 ∨ a = 0x80000000) ∧ (b = 0 ∨ b = 0x80000000)) ∨ a = b := by
  unfold unsign32
  split <;> split <;> rename_i h1 h2
  · subst h1 h2; simp
  · subst h1
    constructor
    · intro h; exact .inl ⟨.inr rfl, .inl h.symm⟩
    · rintro (⟨_, h | h⟩ | h)
      · exact h.symm
      · exact absurd h h2
      · exact absurd h.symm h2
  · subst h2
    constructor
    · intro h; exact .inl ⟨.inl h, .inr rfl⟩
    · rintro (⟨h | h, _⟩ | h)
      · exact h
      · exact absurd h h1
      · exact absurd h h1
  · constructor
    · exact .inr
    · rintro (⟨h | h, h' | h'⟩ | h)
      · rw [h, h']
      · exact absurd h' h2
      · exact absurd h h1
      · exact absurd h h1
      · exact h

theorem unsign64_eq (a b : UInt64) :
    unsign64 a = unsign64 b ↔
      ((a = 0 ∨ a = 0x8000000000000000) ∧ (b = 0 ∨ b = 0x8000000000000000)) ∨ a = b := by
  unfold unsign64
  split <;> split <;> rename_i h1 h2
  · subst h1 h2; simp
  · subst h1
    constructor
    · intro h; exact .inl ⟨.inr rfl, .inl h.symm⟩
    · rintro (⟨_, h | h⟩ | h)
      · exact h.symm
      · exact absurd h h2
      · exact absurd h.symm h2
  · subst h2
    constructor
    · intro h; exact .inl ⟨.inl h, .inr rfl⟩
    · rintro (⟨h | h, _⟩ | h)
      · exact h
      · exact absurd h h1
      · exact absurd h h1
  · constructor
    · exact .inr
    · rintro (⟨h | h, h' | h'⟩ | h)
      · rw [h, h']
      · exact absurd h' h2
      · exact absurd h h1
      · exact absurd h h1
      · exact h

theorem f32Eq_iff (a b : UInt32) : f32Eq a b = true ↔ ¬ IsNaN32 a ∧ unsign32 a = unsign32 b := by
  simp only [f32Eq, Bool.and_eq_true, Bool.not_eq_true', decide_eq_false_iff_not, nan32,
    Bool.or_eq_true, decide_eq_true_eq, zero32, unsign32_eq]
  constructor
  · rintro ⟨⟨h1, _⟩, h3⟩; exact ⟨h1, h3⟩
  · rintro ⟨h1, h3⟩
    refine ⟨⟨h1, ?_⟩, h3⟩
    rcases h3 with ⟨_, rfl | rfl⟩ | rfl
    · decide
    · decide
    · exact h1

theorem f64Eq_iff (a b : UInt64) : f64Eq a b = true ↔ ¬ IsNaN64 a ∧ unsign64 a = unsign64 b := by
  simp only [f64Eq, Bool.and_eq_true, Bool.not_eq_true', decide_eq_false_iff_not, nan64,
    Bool.or_eq_true, decide_eq_true_eq, zero64, unsign64_eq]
  constructor
  · rintro ⟨⟨h1, _⟩, h3⟩; exact ⟨h1, h3⟩
  · rintro ⟨h1, h3⟩
    refine ⟨⟨h1, ?_⟩, h3⟩
    rcases h3 with ⟨_, rfl | rfl⟩ | rfl
    · decide
    · decide
    · exact h1

/-! ### Instructions -/

/-- Neither nested nor a float. -/
def Flat : Instr → Prop
  | .F32Const _ | .F64Const _ | .Block _ _ | .Loop _ _ | .If _ _ _ | .TryTable _ _ _ => False
  | _ => True

theorem flat_eq {a : Instr} (ha : Flat a) (b : Instr) : Instr.eq a b = true ↔ a = b := by
  constructor
  · intro h
    cases a <;> first | exact ha.elim | skip
    all_goals
      unfold Instr.eq at h
      split at h
      · simp only [Bool.and_eq_true, decide_eq_true_eq] at h
        simp only [h]
      · cases h
  · rintro rfl
    cases a <;> first | exact ha.elim | skip
    all_goals
      unfold Instr.eq
      simp only [decide_true, Bool.and_true]

theorem flat_unsign {a : Instr} (ha : Flat a) : unsign a = a := by
  cases a <;> first | exact ha.elim | rfl

theorem flat_noNaN {a : Instr} (ha : Flat a) : NoNaN a := by
  cases a <;> first | exact ha.elim | trivial

theorem flat_of_unsign {a b : Instr} (ha : Flat a) (h : unsign b = a) : b = a := by
  cases b <;> first | exact h | skip
  all_goals
    rw [unsign] at h
    rw [← h] at ha
    exact ha.elim

theorem flat_iff {a : Instr} (ha : Flat a) (b : Instr) :
    Instr.eq a b = true ↔ NoNaN a ∧ unsign a = unsign b := by
  rw [flat_eq ha]
  constructor
  · rintro rfl; exact ⟨flat_noNaN ha, rfl⟩
  · rintro ⟨_, h⟩
    rw [flat_unsign ha] at h
    exact (flat_of_unsign ha h.symm).symm

theorem ne_unsign {a b : Instr} (h : a = unsign b) (hb : Flat b) : a = b := by
  rwa [flat_unsign hb] at h

mutual
theorem instr_eq_iff : ∀ a b : Instr, Instr.eq a b = true ↔ NoNaN a ∧ unsign a = unsign b
  | .F32Const x, b => by
    unfold Instr.eq; rw [NoNaN, unsign]
    cases b with
    | F32Const y => simp [unsign, f32Eq_iff]
    | _ => simp [unsign]
  | .F64Const x, b => by
    unfold Instr.eq; rw [NoNaN, unsign]
    cases b with
    | F64Const y => simp [unsign, f64Eq_iff]
    | _ => simp [unsign]
  | .Block bt is, b => by
    unfold Instr.eq; rw [NoNaN, unsign]
    cases b with
    | Block bt' is' =>
      have := instrs_eq_iff is is'
      simp [unsign, this]
      grind
    | _ => simp [unsign]
  | .Loop bt is, b => by
    unfold Instr.eq; rw [NoNaN, unsign]
    cases b with
    | Loop bt' is' =>
      have := instrs_eq_iff is is'
      simp [unsign, this]
      grind
    | _ => simp [unsign]
  | .If bt is e, b => by
    unfold Instr.eq; rw [NoNaN, unsign]
    cases b with
    | If bt' is' e' =>
      have := instrs_eq_iff is is'
      have h2 := opt_eq_iff e e'
      simp [unsign, this, h2]
      grind
    | _ => simp [unsign]
  | .TryTable bt cs is, b => by
    unfold Instr.eq; rw [NoNaN, unsign]
    cases b with
    | TryTable bt' cs' is' =>
      have := instrs_eq_iff is is'
      simp [unsign, this]
      grind
    | _ => simp [unsign]
  | .plain _, b => flat_iff (a := .plain _) trivial b
  | .mem _ _, b => flat_iff (a := .mem _ _) trivial b
  | .memLane _ _ _, b => flat_iff (a := .memLane _ _ _) trivial b
  | .lane _ _, b => flat_iff (a := .lane _ _) trivial b
  | .Br _, b => flat_iff (a := .Br _) trivial b
  | .BrIf _, b => flat_iff (a := .BrIf _) trivial b
  | .BrTable _ _, b => flat_iff (a := .BrTable _ _) trivial b
  | .BrOnNull _, b => flat_iff (a := .BrOnNull _) trivial b
  | .BrOnNonNull _, b => flat_iff (a := .BrOnNonNull _) trivial b
  | .BrOnCast _ _ _, b => flat_iff (a := .BrOnCast _ _ _) trivial b
  | .BrOnCastFail _ _ _, b => flat_iff (a := .BrOnCastFail _ _ _) trivial b
  | .Call _, b => flat_iff (a := .Call _) trivial b
  | .CallRef _, b => flat_iff (a := .CallRef _) trivial b
  | .CallIndirect _ _, b => flat_iff (a := .CallIndirect _ _) trivial b
  | .ReturnCall _, b => flat_iff (a := .ReturnCall _) trivial b
  | .ReturnCallRef _, b => flat_iff (a := .ReturnCallRef _) trivial b
  | .ReturnCallIndirect _ _, b => flat_iff (a := .ReturnCallIndirect _ _) trivial b
  | .Throw _, b => flat_iff (a := .Throw _) trivial b
  | .RefFunc _, b => flat_iff (a := .RefFunc _) trivial b
  | .RefNull _, b => flat_iff (a := .RefNull _) trivial b
  | .RefTest _, b => flat_iff (a := .RefTest _) trivial b
  | .RefCast _, b => flat_iff (a := .RefCast _) trivial b
  | .StructNew _, b => flat_iff (a := .StructNew _) trivial b
  | .StructNewDefault _, b => flat_iff (a := .StructNewDefault _) trivial b
  | .StructGet _ _, b => flat_iff (a := .StructGet _ _) trivial b
  | .StructGetS _ _, b => flat_iff (a := .StructGetS _ _) trivial b
  | .StructGetU _ _, b => flat_iff (a := .StructGetU _ _) trivial b
  | .StructSet _ _, b => flat_iff (a := .StructSet _ _) trivial b
  | .ArrayNew _, b => flat_iff (a := .ArrayNew _) trivial b
  | .ArrayNewDefault _, b => flat_iff (a := .ArrayNewDefault _) trivial b
  | .ArrayNewFixed _ _, b => flat_iff (a := .ArrayNewFixed _ _) trivial b
  | .ArrayNewData _ _, b => flat_iff (a := .ArrayNewData _ _) trivial b
  | .ArrayNewElem _ _, b => flat_iff (a := .ArrayNewElem _ _) trivial b
  | .ArrayGet _, b => flat_iff (a := .ArrayGet _) trivial b
  | .ArrayGetS _, b => flat_iff (a := .ArrayGetS _) trivial b
  | .ArrayGetU _, b => flat_iff (a := .ArrayGetU _) trivial b
  | .ArraySet _, b => flat_iff (a := .ArraySet _) trivial b
  | .ArrayFill _, b => flat_iff (a := .ArrayFill _) trivial b
  | .ArrayCopy _ _, b => flat_iff (a := .ArrayCopy _ _) trivial b
  | .ArrayInitData _ _, b => flat_iff (a := .ArrayInitData _ _) trivial b
  | .ArrayInitElem _ _, b => flat_iff (a := .ArrayInitElem _ _) trivial b
  | .Select _, b => flat_iff (a := .Select _) trivial b
  | .LocalGet _, b => flat_iff (a := .LocalGet _) trivial b
  | .LocalSet _, b => flat_iff (a := .LocalSet _) trivial b
  | .LocalTee _, b => flat_iff (a := .LocalTee _) trivial b
  | .GlobalGet _, b => flat_iff (a := .GlobalGet _) trivial b
  | .GlobalSet _, b => flat_iff (a := .GlobalSet _) trivial b
  | .TableGet _, b => flat_iff (a := .TableGet _) trivial b
  | .TableSet _, b => flat_iff (a := .TableSet _) trivial b
  | .TableInit _ _, b => flat_iff (a := .TableInit _ _) trivial b
  | .ElemDrop _, b => flat_iff (a := .ElemDrop _) trivial b
  | .TableCopy _ _, b => flat_iff (a := .TableCopy _ _) trivial b
  | .TableGrow _, b => flat_iff (a := .TableGrow _) trivial b
  | .TableSize _, b => flat_iff (a := .TableSize _) trivial b
  | .TableFill _, b => flat_iff (a := .TableFill _) trivial b
  | .MemorySize _, b => flat_iff (a := .MemorySize _) trivial b
  | .MemoryGrow _, b => flat_iff (a := .MemoryGrow _) trivial b
  | .MemoryInit _ _, b => flat_iff (a := .MemoryInit _ _) trivial b
  | .DataDrop _, b => flat_iff (a := .DataDrop _) trivial b
  | .MemoryCopy _ _, b => flat_iff (a := .MemoryCopy _ _) trivial b
  | .MemoryFill _, b => flat_iff (a := .MemoryFill _) trivial b
  | .I32Const _, b => flat_iff (a := .I32Const _) trivial b
  | .I64Const _, b => flat_iff (a := .I64Const _) trivial b
  | .V128Const _, b => flat_iff (a := .V128Const _) trivial b
  | .I8x16Shuffle _, b => flat_iff (a := .I8x16Shuffle _) trivial b
theorem instrs_eq_iff : ∀ a b : List Instr, instrsEq a b = true ↔ NoNaNs a ∧ unsigns a = unsigns b
  | [], b => by cases b <;> simp [instrsEq, NoNaNs, unsigns]
  | x :: xs, b => by
    cases b with
    | nil => simp [instrsEq, unsigns]
    | cons y ys =>
      have h1 := instr_eq_iff x y
      have h2 := instrs_eq_iff xs ys
      simp [instrsEq, NoNaNs, unsigns, h1, h2]
      grind
theorem opt_eq_iff : ∀ a b : Option (List Instr),
    instrsOptEq a b = true ↔ NoNaNOpt a ∧ unsignOpt a = unsignOpt b
  | none, b => by cases b <;> simp [instrsOptEq, NoNaNOpt, unsignOpt]
  | some x, b => by
    cases b with
    | none => simp [instrsOptEq, unsignOpt]
    | some y =>
      have h1 := instrs_eq_iff x y
      simp [instrsOptEq, NoNaNOpt, unsignOpt, h1]
end

/-! ### Modules -/

theorem vecEq_iff {α : Type} {eq : α → α → Bool} {P : α → Prop} {f : α → α}
    (h : ∀ a b, eq a b = true ↔ P a ∧ f a = f b) :
    ∀ a b : List α, vecEq eq a b = true ↔ (∀ x ∈ a, P x) ∧ a.map f = b.map f
  | [], [] => by simp [vecEq]
  | [], _ :: _ => by simp [vecEq]
  | _ :: _, [] => by simp [vecEq]
  | x :: xs, y :: ys => by
    have := vecEq_iff h xs ys
    simp [vecEq, h, this]
    grind

theorem func_eq_iff (a b : Func) : Func.eq a b = true ↔ NoNaNs a.body ∧
    ({ a with body := unsigns a.body } : Func) = { b with body := unsigns b.body } := by
  cases a; cases b
  simp [Func.eq, Expr.eq, instrs_eq_iff]
  grind

theorem table_eq_iff (a b : Table) : Table.eq a b = true ↔ NoNaNs a.init ∧
    ({ a with init := unsigns a.init } : Table) = { b with init := unsigns b.init } := by
  cases a; cases b
  simp [Table.eq, Expr.eq, instrs_eq_iff]
  grind

theorem global_eq_iff (a b : Global) : Global.eq a b = true ↔ NoNaNs a.init ∧
    ({ a with init := unsigns a.init } : Global) = { b with init := unsigns b.init } := by
  cases a; cases b
  simp [Global.eq, Expr.eq, instrs_eq_iff]
  grind

def ElemMode.offset : ElemMode → List Expr
  | .Active _ o => [o] | _ => []
def DataMode.offset : DataMode → List Expr
  | .Active _ o => [o] | _ => []

theorem elemMode_eq_iff (a b : ElemMode) : ElemMode.eq a b = true ↔
    (∀ e ∈ a.offset, NoNaNs e) ∧ unsignElemMode a = unsignElemMode b := by
  cases a <;> cases b <;> simp [ElemMode.eq, ElemMode.offset, unsignElemMode, Expr.eq, instrs_eq_iff]
  grind

theorem dataMode_eq_iff (a b : DataMode) : DataMode.eq a b = true ↔
    (∀ e ∈ a.offset, NoNaNs e) ∧ unsignDataMode a = unsignDataMode b := by
  cases a <;> cases b <;> simp [DataMode.eq, DataMode.offset, unsignDataMode, Expr.eq, instrs_eq_iff]
  grind

theorem elem_eq_iff (a b : Elem) : Elem.eq a b = true ↔
    (∀ e ∈ a.init ++ a.mode.offset, NoNaNs e) ∧
    ({ a with init := a.init.map unsigns, mode := unsignElemMode a.mode } : Elem) =
      { b with init := b.init.map unsigns, mode := unsignElemMode b.mode } := by
  cases a; cases b
  have := vecEq_iff (eq := Expr.eq) (P := NoNaNs) (f := unsigns) instrs_eq_iff
  simp only [Elem.eq, this, elemMode_eq_iff, Bool.and_eq_true, decide_eq_true_eq, Elem.mk.injEq,
    List.mem_append]
  grind

theorem data_eq_iff (a b : Data) : Data.eq a b = true ↔
    (∀ e ∈ a.mode.offset, NoNaNs e) ∧
    ({ a with mode := unsignDataMode a.mode } : Data) = { b with mode := unsignDataMode b.mode } := by
  cases a; cases b
  simp only [Data.eq, dataMode_eq_iff, Bool.and_eq_true, decide_eq_true_eq, Data.mk.injEq]
  grind

theorem isNaN32_unsign (x : UInt32) : IsNaN32 (unsign32 x) ↔ IsNaN32 x := by
  unfold unsign32
  split
  · rename_i h; subst h; decide
  · exact Iff.rfl

theorem isNaN64_unsign (x : UInt64) : IsNaN64 (unsign64 x) ↔ IsNaN64 x := by
  unfold unsign64
  split
  · rename_i h; subst h; decide
  · exact Iff.rfl

mutual
theorem noNaN_unsign : ∀ a : Instr, NoNaN (unsign a) ↔ NoNaN a
  | .F32Const x => not_congr (isNaN32_unsign x)
  | .F64Const x => not_congr (isNaN64_unsign x)
  | .Block _ is => noNaNs_unsign is
  | .Loop _ is => noNaNs_unsign is
  | .If _ is e => and_congr (noNaNs_unsign is) (noNaNOpt_unsign e)
  | .TryTable _ _ is => noNaNs_unsign is
  | .plain _ => Iff.rfl
  | .mem _ _ => Iff.rfl
  | .memLane _ _ _ => Iff.rfl
  | .lane _ _ => Iff.rfl
  | .Br _ => Iff.rfl
  | .BrIf _ => Iff.rfl
  | .BrTable _ _ => Iff.rfl
  | .BrOnNull _ => Iff.rfl
  | .BrOnNonNull _ => Iff.rfl
  | .BrOnCast _ _ _ => Iff.rfl
  | .BrOnCastFail _ _ _ => Iff.rfl
  | .Call _ => Iff.rfl
  | .CallRef _ => Iff.rfl
  | .CallIndirect _ _ => Iff.rfl
  | .ReturnCall _ => Iff.rfl
  | .ReturnCallRef _ => Iff.rfl
  | .ReturnCallIndirect _ _ => Iff.rfl
  | .Throw _ => Iff.rfl
  | .RefFunc _ => Iff.rfl
  | .RefNull _ => Iff.rfl
  | .RefTest _ => Iff.rfl
  | .RefCast _ => Iff.rfl
  | .StructNew _ => Iff.rfl
  | .StructNewDefault _ => Iff.rfl
  | .StructGet _ _ => Iff.rfl
  | .StructGetS _ _ => Iff.rfl
  | .StructGetU _ _ => Iff.rfl
  | .StructSet _ _ => Iff.rfl
  | .ArrayNew _ => Iff.rfl
  | .ArrayNewDefault _ => Iff.rfl
  | .ArrayNewFixed _ _ => Iff.rfl
  | .ArrayNewData _ _ => Iff.rfl
  | .ArrayNewElem _ _ => Iff.rfl
  | .ArrayGet _ => Iff.rfl
  | .ArrayGetS _ => Iff.rfl
  | .ArrayGetU _ => Iff.rfl
  | .ArraySet _ => Iff.rfl
  | .ArrayFill _ => Iff.rfl
  | .ArrayCopy _ _ => Iff.rfl
  | .ArrayInitData _ _ => Iff.rfl
  | .ArrayInitElem _ _ => Iff.rfl
  | .Select _ => Iff.rfl
  | .LocalGet _ => Iff.rfl
  | .LocalSet _ => Iff.rfl
  | .LocalTee _ => Iff.rfl
  | .GlobalGet _ => Iff.rfl
  | .GlobalSet _ => Iff.rfl
  | .TableGet _ => Iff.rfl
  | .TableSet _ => Iff.rfl
  | .TableInit _ _ => Iff.rfl
  | .ElemDrop _ => Iff.rfl
  | .TableCopy _ _ => Iff.rfl
  | .TableGrow _ => Iff.rfl
  | .TableSize _ => Iff.rfl
  | .TableFill _ => Iff.rfl
  | .MemorySize _ => Iff.rfl
  | .MemoryGrow _ => Iff.rfl
  | .MemoryInit _ _ => Iff.rfl
  | .DataDrop _ => Iff.rfl
  | .MemoryCopy _ _ => Iff.rfl
  | .MemoryFill _ => Iff.rfl
  | .I32Const _ => Iff.rfl
  | .I64Const _ => Iff.rfl
  | .V128Const _ => Iff.rfl
  | .I8x16Shuffle _ => Iff.rfl
theorem noNaNs_unsign : ∀ a : List Instr, NoNaNs (unsigns a) ↔ NoNaNs a
  | [] => Iff.rfl
  | i :: is => and_congr (noNaN_unsign i) (noNaNs_unsign is)
theorem noNaNOpt_unsign : ∀ a : Option (List Instr), NoNaNOpt (unsignOpt a) ↔ NoNaNOpt a
  | none => Iff.rfl
  | some is => noNaNs_unsign is
end

theorem exprsOf_eq (m : Module) : exprsOf m =
    m.funcs.map (·.body) ++ m.tables.map (·.init) ++ m.globals.map (·.init) ++
    m.elems.flatMap (fun e => e.init ++ e.mode.offset) ++ m.datas.flatMap (fun d => d.mode.offset) :=
  rfl

theorem naNFree_iff (a : Module) : NaNFree a ↔ (∀ x ∈ a.funcs, NoNaNs x.body) ∧ (∀ x ∈ a.tables, NoNaNs x.init) ∧
    (∀ x ∈ a.globals, NoNaNs x.init) ∧ (∀ x ∈ a.elems, ∀ e ∈ x.init ++ x.mode.offset, NoNaNs e) ∧
    (∀ x ∈ a.datas, ∀ e ∈ x.mode.offset, NoNaNs e) := by
  unfold NaNFree
  rw [exprsOf_eq]
  constructor
  · intro h
    refine ⟨fun x hx => h _ ?_, fun x hx => h _ ?_, fun x hx => h _ ?_, fun x hx e he => h _ ?_,
      fun x hx e he => h _ ?_⟩ <;> simp only [List.mem_append, List.mem_map, List.mem_flatMap] at * <;>
      grind
  · rintro ⟨a1, a2, a3, a4, a5⟩ e he
    simp only [List.mem_append, List.mem_map, List.mem_flatMap] at *
    grind

theorem naNFree_unsign {m : Module} : NaNFree (unsignModule m) ↔ NaNFree m := by
  rw [naNFree_iff, naNFree_iff]
  have he (x : ElemMode) : (unsignElemMode x).offset = x.offset.map unsigns := by cases x <;> rfl
  have hd (x : DataMode) : (unsignDataMode x).offset = x.offset.map unsigns := by cases x <;> rfl
  simp only [unsignModule, List.forall_mem_map, ← List.map_append, noNaNs_unsign, he, hd]

theorem module_eq_iff (a b : Module) :
    Module.eq a b = true ↔ NaNFree a ∧ unsignModule a = unsignModule b := by
  have h1 := vecEq_iff func_eq_iff a.funcs b.funcs
  have h2 := vecEq_iff table_eq_iff a.tables b.tables
  have h3 := vecEq_iff global_eq_iff a.globals b.globals
  have h4 := vecEq_iff elem_eq_iff a.elems b.elems
  have h5 := vecEq_iff data_eq_iff a.datas b.datas
  rw [naNFree_iff]
  cases a; cases b
  simp only [Module.eq, unsignModule, h1, h2, h3, h4, h5, Bool.and_eq_true, decide_eq_true_eq,
    Module.mk.injEq] at *
  grind

end Wadec
