import Verif.Spec.Shortest
import Verif.Proof.Encode
import Verif.Proof.Types

/-! The encoder of Spec/Shortest produces encodings, and no longer ones than any other (C73). -/

namespace Wadec

open Spec

/-- Whatever has an encoding is encoded by `f`, at most as long. -/
def Shrinks {α : Type} (B : Bytes → α → Prop) (f : α → Bytes) : Prop :=
  ∀ {bs : Bytes} {v : α}, B bs v → B (f v) v ∧ (f v).length ≤ bs.length

/-! ### Integers and lists -/

theorem encU_min {N : Nat} {b : Bytes} {n : Nat} (h : BU N b n) : (encU n).length ≤ b.length := by
  induction h with
  | last h _ => rw [encU]; simp only [show _ < 128 from h, if_true]; simp
  | @more N n bs m h1 h2 h3 ih =>
    have hn := n.toNat_lt
    rw [encU]
    split
    · simp
    · rw [show (2 ^ 7 * m + (n.toNat - 2 ^ 7)) / 128 = m by omega]
      simp only [List.length_cons]; omega

theorem encS_min {N : Nat} {b : Bytes} {n : Int} (h : BS N b n) : (encS n).length ≤ b.length := by
  induction h with
  | pos h _ => rw [encS]; rw [if_pos (by omega)]; simp
  | neg h h' _ => rw [encS]; rw [if_pos (by omega)]; simp
  | @more N n bs m h1 h2 h3 ih =>
    have hn := n.toNat_lt
    rw [encS]
    split
    · simp
    · rw [show (2 ^ 7 * m + ((n.toNat : Int) - 2 ^ 7)) / 128 = m by omega]
      simp only [List.length_cons]; omega

theorem sh_u32 {b : Bytes} {v : UInt32} (h : BU32 b v) : BU32 (encU v.toNat) v ∧ (encU v.toNat).length ≤ b.length :=
  ⟨encU32 v, encU_min h⟩
theorem sh_u64 {b : Bytes} {v : UInt64} (h : BU64 b v) : BU64 (encU v.toNat) v ∧ (encU v.toNat).length ≤ b.length :=
  ⟨encU64 v, encU_min h⟩
theorem sh_i32 {b : Bytes} {v : Int32} (h : BI32 b v) : BI32 (encS v.toInt) v ∧ (encS v.toInt).length ≤ b.length :=
  ⟨encI32 v, encS_min h⟩
theorem sh_i64 {b : Bytes} {v : Int64} (h : BI64 b v) : BI64 (encS v.toInt) v ∧ (encS v.toInt).length ≤ b.length :=
  ⟨encI64 v, encS_min h⟩
theorem sh_s33 {b : Bytes} {v : UInt32} (h : BS 33 b v.toNat) :
    BS 33 (encS v.toNat) v.toNat ∧ (encS v.toNat).length ≤ b.length := ⟨encS33 v, encS_min h⟩
theorem sh_nat {b : Bytes} {n : Nat} (h : BU 32 b n) : BU 32 (encU n) n ∧ (encU n).length ≤ b.length :=
  ⟨encU_ok n 32 (by omega) (BU.lt h), encU_min h⟩

theorem Shrinks.seq {α : Type} {B : Bytes → α → Prop} {f : α → Bytes} (h : Shrinks B f) :
    Shrinks (BSeq B) (fun xs => xs.flatMap f) := by
  intro bs xs hs
  induction hs with
  | nil => exact ⟨.nil, Nat.le_refl _⟩
  | cons hx _ ih =>
    obtain ⟨h1, h2⟩ := h hx
    refine ⟨.cons h1 ih.1, ?_⟩
    have := ih.2
    simp only [List.flatMap_cons, List.length_append] at this ⊢
    omega

theorem Shrinks.list {α : Type} {B : Bytes → α → Prop} {f : α → Bytes} (h : Shrinks B f) :
    Shrinks (BList B) (encList f) := by
  intro bs xs hl
  cases hl with
  | mk hn hs =>
    obtain ⟨h1, h2⟩ := sh_nat hn
    obtain ⟨h3, h4⟩ := h.seq hs
    refine ⟨.mk h1 h3, ?_⟩
    simp only [encList, List.length_append] at h4 ⊢
    omega

theorem bytes_seq {bs xs : Bytes} (h : BSeq BByte bs xs) : bs = xs := by
  induction h with
  | nil => rfl
  | cons hx _ ih => cases hx; rw [ih]; rfl

theorem shrinks_bytes : Shrinks BByteVec encBytes := by
  intro bs v h
  cases h with
  | mk hn hs =>
    obtain ⟨h1, h2⟩ := sh_nat hn
    cases bytes_seq hs
    refine ⟨.mk h1 hs, ?_⟩
    simp only [encBytes, List.length_append]; omega

theorem shrinks_name : Shrinks BName encName := by
  intro bs v h
  obtain ⟨h1, h2⟩ := shrinks_bytes h.1
  exact ⟨⟨h1, h.2⟩, h2⟩

theorem shortest_mem : ∀ {l : List Bytes}, l ≠ [] → shortest l ∈ l
  | [], h => absurd rfl h
  | [b], _ => by simp [shortest]
  | b :: c :: l, _ => by
    have ih := shortest_mem (l := c :: l) (by simp)
    rw [shortest]
    split
    · simp
    · exact List.mem_cons_of_mem _ ih

theorem shortest_le : ∀ {l : List Bytes} {b : Bytes}, b ∈ l → (shortest l).length ≤ b.length
  | [], b, h => by simp at h
  | [c], b, h => by simp at h; subst h; simp [shortest]
  | a :: c :: l, b, h => by
    rw [shortest]
    rcases List.mem_cons.1 h with h | h
    · subst h; split <;> omega
    · have := shortest_le h
      split <;> omega

/-- The shortest of several encodings, one of which is short enough. -/
theorem shortest_ok {α : Type} {B : Bytes → α → Prop} {v : α} {l : List Bytes} {bs b : Bytes}
    (h : ∀ c ∈ l, B c v) (hb : b ∈ l) (hl : b.length ≤ bs.length) :
    B (shortest l) v ∧ (shortest l).length ≤ bs.length :=
  ⟨h _ (shortest_mem (List.ne_nil_of_mem hb)), Nat.le_trans (shortest_le hb) hl⟩

/-! ### Types -/

theorem shrinks_heap : Shrinks BHeapType encHeapType := by
  intro bs v h
  refine ⟨encHeapType_ok v, ?_⟩
  cases h with
  | abs h => cases h <;> simp [encHeapType]
  | idx h => exact encS_min h

theorem shRefType_ok (t : RefType) : BRefType (shRefType t) t := by
  unfold shRefType
  split
  · exact .abs (encAbsHeapType_ok _)
  · exact encRefType_ok _

theorem shrinks_ref : Shrinks BRefType shRefType := by
  intro bs v h
  refine ⟨shRefType_ok v, ?_⟩
  cases h with
  | ref h => simpa [shRefType, encRefType] using (shrinks_heap h).2
  | @refNull b ht h =>
    have := (shrinks_heap h).2
    cases ht with
    | Ht t => simp [shRefType]
    | TypeIdx x => simpa [shRefType, encRefType] using this
  | abs h => cases h <;> simp [shRefType]

theorem shrinks_val : Shrinks BValType shValType := by
  intro bs v h
  cases h with
  | ref h => exact ⟨.ref (shrinks_ref h).1, (shrinks_ref h).2⟩
  | i32 => exact ⟨.i32, Nat.le_refl _⟩
  | i64 => exact ⟨.i64, Nat.le_refl _⟩
  | f32 => exact ⟨.f32, Nat.le_refl _⟩
  | f64 => exact ⟨.f64, Nat.le_refl _⟩
  | v128 => exact ⟨.v128, Nat.le_refl _⟩

theorem shrinks_mut : Shrinks BMut (fun m => [encMut m]) := by
  intro bs v h
  cases h <;> exact ⟨encMut_ok _, Nat.le_refl _⟩

theorem shrinks_global_type : Shrinks BGlobalType shGlobalType := by
  intro bs v h
  cases h with
  | mk h1 h2 =>
    have g1 := shrinks_val h1; have g2 := shrinks_mut h2
    exact ⟨.mk g1.1 g2.1, by have := g1.2; have := g2.2; simp only [shGlobalType, List.length_append] at *; omega⟩

theorem shrinks_storage : Shrinks BStorageType shStorageType := by
  intro bs v h
  cases h with
  | i16 => exact ⟨.i16, Nat.le_refl _⟩
  | i8 => exact ⟨.i8, Nat.le_refl _⟩
  | val h => exact ⟨.val (shrinks_val h).1, (shrinks_val h).2⟩

theorem shrinks_field : Shrinks BFieldType shFieldType := by
  intro bs v h
  cases h with
  | mk h1 h2 =>
    have g1 := shrinks_storage h1; have g2 := shrinks_mut h2
    exact ⟨.mk g1.1 g2.1, by have := g1.2; have := g2.2; simp only [shFieldType, List.length_append] at *; omega⟩

theorem shrinks_comp : Shrinks BCompType shCompType := by
  intro bs v h
  cases h with
  | array h =>
    have g := shrinks_field h
    exact ⟨.array g.1, by have := g.2; simp only [shCompType, List.length_cons]; omega⟩
  | struct h =>
    have g := shrinks_field.list h
    exact ⟨.struct g.1, by have := g.2; simp only [shCompType, List.length_cons]; omega⟩
  | func h1 h2 =>
    have g1 := shrinks_val.list h1; have g2 := shrinks_val.list h2
    exact ⟨.func g1.1 g2.1, by
      have := g1.2; have := g2.2; simp only [shCompType, List.length_cons, List.length_append]; omega⟩

theorem shrinks_idx : Shrinks BTypeIdx encTypeIdx := fun h => sh_u32 h

theorem shSubType_long {xs : List TypeIdx} {ct : CompType} {f : Bool}
    (h : ∀ ct', (⟨f, xs, ct⟩ : SubType) ≠ ⟨true, [], ct'⟩) :
    shSubType ⟨f, xs, ct⟩ = (if f then 0x4F else 0x50) :: (encList encTypeIdx xs ++ shCompType ct) := by
  unfold shSubType
  split
  · rename_i h'; exact absurd h' (h _)
  · rfl

theorem shrinks_sub : Shrinks BSubType shSubType := by
  intro bs v h
  cases h with
  | @final b1 b2 xs ct h1 h2 =>
    have g1 := shrinks_idx.list h1; have g2 := shrinks_comp h2
    have l1 := g1.2; have l2 := g2.2
    cases xs with
    | nil =>
      exact ⟨.comp g2.1, by simp only [shSubType, List.length_cons, List.length_append]; omega⟩
    | cons x xs =>
      rw [shSubType_long (by simp)]
      exact ⟨.final g1.1 g2.1, by simp only [if_true, List.length_cons, List.length_append]; omega⟩
  | @«open» b1 b2 xs ct h1 h2 =>
    have g1 := shrinks_idx.list h1; have g2 := shrinks_comp h2
    have l1 := g1.2; have l2 := g2.2
    rw [shSubType_long (by simp)]
    exact ⟨.open g1.1 g2.1, by simp only [List.length_cons, List.length_append]; omega⟩
  | comp h =>
    have g := shrinks_comp h
    exact ⟨.comp g.1, g.2⟩

theorem shrinks_rec : Shrinks BRecType shRecType := by
  intro bs v h
  cases h with
  | @group b sts h =>
    have g := shrinks_sub.list h
    have l := g.2
    by_cases h1 : ∃ t, sts = [t]
    · obtain ⟨t, rfl⟩ := h1
      cases h with
      | mk hn hs =>
        cases hs with
        | cons hx ht =>
          cases ht
          have g := shrinks_sub hx
          exact ⟨.single g.1, by have := g.2; simp only [shRecType, List.length_cons, List.length_append]; omega⟩
    · have : shRecType ⟨sts⟩ = 0x4E :: encList shSubType sts := by
        unfold shRecType
        split
        · rename_i t e; cases e; exact absurd ⟨_, rfl⟩ h1
        · rfl
      rw [this]
      exact ⟨.group g.1, by simp only [List.length_cons]; omega⟩
  | single h =>
    have g := shrinks_sub h
    exact ⟨.single g.1, g.2⟩

theorem shrinks_limits : Shrinks BLimits encLimits := by
  intro bs v h
  refine ⟨encLimits_ok v, ?_⟩
  cases h with
  | i32Min h => have := encU_min h; simp only [encLimits, List.length_cons]; omega
  | i64Min h => have := encU_min h; simp only [encLimits, List.length_cons]; omega
  | i32MinMax h1 h2 =>
    have := encU_min h1; have := encU_min h2; simp only [encLimits, List.length_cons, List.length_append]; omega
  | i64MinMax h1 h2 =>
    have := encU_min h1; have := encU_min h2; simp only [encLimits, List.length_cons, List.length_append]; omega

theorem shrinks_mem : Shrinks BMemType encMemType := fun h => shrinks_limits h

theorem shrinks_table_type : Shrinks BTableType shTableType := by
  intro bs v h
  cases h with
  | mk h1 h2 =>
    have g1 := shrinks_ref h1; have g2 := shrinks_limits h2
    exact ⟨.mk g1.1 g2.1, by have := g1.2; have := g2.2; simp only [shTableType, List.length_append]; omega⟩

theorem shrinks_tag : Shrinks BTagType encTagType := by
  intro bs v h
  cases h with
  | mk h => exact ⟨.mk (encU32 _), by have := encU_min h; simp only [encTagType, List.length_cons]; omega⟩

theorem shrinks_extern : Shrinks BExternType shExternType := by
  intro bs v h
  cases h with
  | func h => exact ⟨.func (encU32 _), by have := encU_min h; simp only [shExternType, encExternType, List.length_cons]; omega⟩
  | table h =>
    have g := shrinks_table_type h
    exact ⟨.table g.1, by have := g.2; simp only [shExternType, List.length_cons]; omega⟩
  | mem h =>
    have g := shrinks_mem h
    exact ⟨.mem g.1, by have := g.2; simp only [shExternType, encExternType, List.length_cons]; omega⟩
  | global h =>
    have g := shrinks_global_type h
    exact ⟨.global g.1, by have := g.2; simp only [shExternType, List.length_cons]; omega⟩
  | tag h =>
    have g := shrinks_tag h
    exact ⟨.tag g.1, by have := g.2; simp only [shExternType, encExternType, List.length_cons]; omega⟩

/-! ### Instructions -/

theorem shrinks_memarg : Shrinks BMemarg shMemarg := by
  intro bs v h
  cases h with
  | @mem0 b1 b2 n m h1 hn h2 =>
    have l1 := encU_min h1; have l2 := encU_min h2
    have : shMemarg ⟨⟨0⟩, n, m⟩ = encU n.toNat ++ encU m.toNat := rfl
    rw [this]
    exact ⟨.mem0 (encU32 n) hn (encU64 m), by simp only [List.length_append]; omega⟩
  | @memx b1 b2 b3 n a x m h1 hn hn' ha h2 h3 =>
    have l1 := encU_min h1; have l2 := encU_min h2; have l3 := encU_min h3
    unfold shMemarg
    split
    · rename_i hx
      simp only at hx
      have hx : x = ⟨0⟩ := by cases x; simp only at hx; rw [hx]
      subst hx
      refine ⟨.mem0 (encU32 a) (by omega) (encU64 m), ?_⟩
      have p := encU_pos n.toNat
      have q : (encU a.toNat).length = 1 := by rw [encU, if_pos (by omega)]; rfl
      simp only [List.length_append]
      omega
    · refine ⟨encMemarg_ok (by simp only; omega), ?_⟩
      have : a.toNat + 64 = n.toNat := by omega
      simp only [encMemarg, List.length_append, this]
      omega

theorem shrinks_block_type : Shrinks BBlockType shBlockType := by
  intro bs v h
  cases h with
  | empty => exact ⟨.empty, Nat.le_refl _⟩
  | val h => exact ⟨.val (shrinks_val h).1, (shrinks_val h).2⟩
  | idx h => exact ⟨.idx (encS33 _), encS_min h⟩

theorem shrinks_catch : Shrinks BCatch encCatch := by
  intro bs v h
  refine ⟨encCatch_ok v, ?_⟩
  cases h with
  | «catch» h1 h2 =>
    have := encU_min h1; have := encU_min h2; simp only [encCatch, List.length_cons, List.length_append]; omega
  | catchRef h1 h2 =>
    have := encU_min h1; have := encU_min h2; simp only [encCatch, List.length_cons, List.length_append]; omega
  | catchAll h1 => have := encU_min h1; simp only [encCatch, List.length_cons]; omega
  | catchAllRef h1 => have := encU_min h1; simp only [encCatch, List.length_cons]; omega

theorem shrinks_label : Shrinks BLabelIdx encLabelIdx := fun h => sh_u32 h

theorem castop_len {b : Bytes} {p : Bool × Bool} (h : BCastop b p) : b.length = 1 := by cases h <;> rfl

macro "shlen" : tactic =>
  `(tactic| (simp only [List.length_append, List.length_cons, List.length_nil] at *; omega))

theorem shrinks_leaf {op : Opcode} {imms : Bytes} {i : Instr} (h : Leaf op imms i) :
    ∃ imms', shLeaf i = some (op, imms') ∧ Leaf op imms' i ∧ imms'.length ≤ imms.length := by
  cases h with
  | mem h => exact ⟨_, rfl, .mem (shrinks_memarg h).1, (shrinks_memarg h).2⟩
  | memLane h hl =>
    cases hl
    have := (shrinks_memarg h).2
    exact ⟨_, rfl, .memLane (shrinks_memarg h).1 rfl, by shlen⟩
  | lane hl => cases hl; exact ⟨_, rfl, .lane rfl, Nat.le_refl _⟩
  | brTable h1 h2 =>
    have g1 := shrinks_label.list h1; have l1 := g1.2; have l2 := encU_min h2
    exact ⟨_, rfl, .brTable g1.1 (encU32 _), by shlen⟩
  | brOnCast h0 h1 h2 h3 =>
    have l0 := castop_len h0; have l1 := encU_min h1; have l2 := (shrinks_heap h2).2; have l3 := (shrinks_heap h3).2
    exact ⟨_, rfl, .brOnCast (encCastop_ok _ _) (encU32 _) (encHeapType_ok _) (encHeapType_ok _), by shlen⟩
  | brOnCastFail h0 h1 h2 h3 =>
    have l0 := castop_len h0; have l1 := encU_min h1; have l2 := (shrinks_heap h2).2; have l3 := (shrinks_heap h3).2
    exact ⟨_, rfl, .brOnCastFail (encCastop_ok _ _) (encU32 _) (encHeapType_ok _) (encHeapType_ok _), by shlen⟩
  | refNull h => exact ⟨_, rfl, .refNull (encHeapType_ok _), (shrinks_heap h).2⟩
  | refTest h => exact ⟨_, rfl, .refTest (encHeapType_ok _), (shrinks_heap h).2⟩
  | refTestNull h => exact ⟨_, rfl, .refTestNull (encHeapType_ok _), (shrinks_heap h).2⟩
  | refCast h => exact ⟨_, rfl, .refCast (encHeapType_ok _), (shrinks_heap h).2⟩
  | refCastNull h => exact ⟨_, rfl, .refCastNull (encHeapType_ok _), (shrinks_heap h).2⟩
  | selectT h => exact ⟨_, rfl, .selectT (shrinks_val.list h).1, (shrinks_val.list h).2⟩
  | i32Const h => exact ⟨_, rfl, .i32Const (encI32 _), encS_min h⟩
  | i64Const h => exact ⟨_, rfl, .i64Const (encI64 _), encS_min h⟩
  | f32Const h => cases h; exact ⟨_, rfl, .f32Const rfl, Nat.le_refl _⟩
  | f64Const h => cases h; exact ⟨_, rfl, .f64Const rfl, Nat.le_refl _⟩
  | plain => exact ⟨_, rfl, .plain, Nat.le_refl _⟩
  | select => exact ⟨_, rfl, .select, Nat.le_refl _⟩
  | v128Const => exact ⟨_, rfl, .v128Const, Nat.le_refl _⟩
  | i8x16Shuffle => exact ⟨_, rfl, .i8x16Shuffle, Nat.le_refl _⟩
  | _ =>
    first
    | (rename_i h; exact ⟨_, rfl, by constructor; exact encU32 _, encU_min h⟩)
    | (rename_i h1 h2
       have l1 := encU_min h1; have l2 := encU_min h2
       exact ⟨_, rfl, by constructor <;> exact encU32 _, by shlen⟩)

theorem opcode_small {b : Bytes} {op : Opcode} (h : BOpcode b op) : op.small := by
  cases h with
  | byte => trivial
  | fb h => exact BU.lt h
  | fc h => exact BU.lt h
  | fd h => exact BU.lt h

theorem shrinks_opcode : Shrinks BOpcode encOpcode := by
  intro bs v h
  refine ⟨encOpcode_ok (opcode_small h), ?_⟩
  cases h with
  | byte => exact Nat.le_refl _
  | fb h => have := encU_min h; simp only [encOpcode, List.length_cons]; omega
  | fc h => have := encU_min h; simp only [encOpcode, List.length_cons]; omega
  | fd h => have := encU_min h; simp only [encOpcode, List.length_cons]; omega

theorem shInstr_leaf {i : Instr} {op : Opcode} {imms : Bytes} (h : shLeaf i = some (op, imms)) :
    shInstr i = encOpcode op ++ imms := by
  cases i with
  | Block _ _ => cases h
  | Loop _ _ => cases h
  | If _ _ _ => cases h
  | TryTable _ _ _ => cases h
  | _ => rw [shInstr.eq_def]; simp only [h]

mutual
theorem shrinks_instr : ∀ {bs : Bytes} {i : Instr}, BInstr bs i →
    BInstr (shInstr i) i ∧ (shInstr i).length ≤ bs.length
  | _, _, .leaf ho hl => by
    obtain ⟨imms', h1, h2, h3⟩ := shrinks_leaf hl
    have g := shrinks_opcode ho; have l := g.2
    rw [shInstr_leaf h1]
    exact ⟨.leaf g.1 h2, by shlen⟩
  | _, _, .block h1 h2 => by
    have g1 := shrinks_block_type h1; have g2 := shrinks_instrs h2; have l1 := g1.2; have l2 := g2.2
    rw [shInstr.eq_def]
    exact ⟨.block g1.1 g2.1, by shlen⟩
  | _, _, .loop h1 h2 => by
    have g1 := shrinks_block_type h1; have g2 := shrinks_instrs h2; have l1 := g1.2; have l2 := g2.2
    rw [shInstr.eq_def]
    exact ⟨.loop g1.1 g2.1, by shlen⟩
  | _, _, .if h1 h2 => by
    have g1 := shrinks_block_type h1; have g2 := shrinks_instrs h2; have l1 := g1.2; have l2 := g2.2
    rw [shInstr.eq_def]; simp only [shElse]
    exact ⟨.if g1.1 g2.1, by shlen⟩
  | _, _, .ifElse h1 h2 h3 => by
    have g1 := shrinks_block_type h1; have g2 := shrinks_instrs h2; have g3 := shrinks_instrs h3
    have l1 := g1.2; have l2 := g2.2; have l3 := g3.2
    rw [shInstr.eq_def]; simp only [shElse]
    refine ⟨by simpa using BInstr.ifElse g1.1 g2.1 g3.1, by shlen⟩
  | _, _, .tryTable h1 h2 h3 => by
    have g1 := shrinks_block_type h1; have g2 := shrinks_catch.list h2; have g3 := shrinks_instrs h3
    have l1 := g1.2; have l2 := g2.2; have l3 := g3.2
    rw [shInstr.eq_def]
    exact ⟨.tryTable g1.1 g2.1 g3.1, by shlen⟩
theorem shrinks_instrs : ∀ {bs : Bytes} {is : List Instr}, BInstrs bs is →
    BInstrs (shInstrs is) is ∧ (shInstrs is).length ≤ bs.length
  | _, _, .nil => ⟨by rw [shInstrs]; exact .nil, by rw [shInstrs]; exact Nat.le_refl _⟩
  | _, _, .cons h1 h2 => by
    have g1 := shrinks_instr h1; have g2 := shrinks_instrs h2; have l1 := g1.2; have l2 := g2.2
    rw [shInstrs]
    exact ⟨.cons g1.1 g2.1, by shlen⟩
end

theorem shrinks_expr : Shrinks BExpr shExpr := by
  intro bs v h
  cases h with
  | mk h =>
    have g := shrinks_instrs h; have l := g.2
    exact ⟨.mk g.1, by simp only [shExpr]; shlen⟩

/-! ### Entries of sections -/

theorem shrinks_import : Shrinks BImport shImport := by
  intro bs v h
  cases h with
  | mk h1 h2 h3 =>
    have g1 := shrinks_name h1; have g2 := shrinks_name h2; have g3 := shrinks_extern h3
    have l1 := g1.2; have l2 := g2.2; have l3 := g3.2
    exact ⟨.mk g1.1 g2.1 g3.1, by simp only [shImport]; shlen⟩

theorem shrinks_extern_idx : Shrinks BExternIdx encExternIdx := by
  intro bs v h
  cases h with
  | func h => have l := encU_min h; exact ⟨.func (encU32 _), by simp only [encExternIdx]; shlen⟩
  | table h => have l := encU_min h; exact ⟨.table (encU32 _), by simp only [encExternIdx]; shlen⟩
  | mem h => have l := encU_min h; exact ⟨.mem (encU32 _), by simp only [encExternIdx]; shlen⟩
  | global h => have l := encU_min h; exact ⟨.global (encU32 _), by simp only [encExternIdx]; shlen⟩
  | tag h => have l := encU_min h; exact ⟨.tag (encU32 _), by simp only [encExternIdx]; shlen⟩

theorem shrinks_export : Shrinks BExport encExport := by
  intro bs v h
  cases h with
  | mk h1 h2 =>
    have g1 := shrinks_name h1; have g2 := shrinks_extern_idx h2
    have l1 := g1.2; have l2 := g2.2
    exact ⟨.mk g1.1 g2.1, by simp only [encExport]; shlen⟩

theorem expr_null (ht : HeapType) : BExpr (shExpr [.RefNull ht]) [.RefNull ht] :=
  (shrinks_expr (.mk (.cons (.leaf (op := .byte 0xD0) .byte (.refNull (encHeapType_ok ht))) .nil))).1

theorem shTable_forms {tt : TableType} {e : Expr} (h1 : BTableType (shTableType tt) tt) (h2 : BExpr (shExpr e) e) :
    ∀ c ∈ ((match (generalizing := false) e with
      | [.RefNull ht] => if ht = tt.reftype.ht then [shTableType tt] else []
      | _ => []) ++ [0x40 :: 0x00 :: (shTableType tt ++ shExpr e)]), BTable c ⟨tt, e⟩ := by
  intro c hc
  rcases List.mem_append.1 hc with hc | hc
  · split at hc
    · split at hc
      · rename_i ht he
        simp only [List.mem_singleton] at hc
        subst hc; subst he
        exact .type h1
      · simp at hc
    · simp at hc
  · simp only [List.mem_singleton] at hc
    subst hc
    exact .init h1 h2

theorem shrinks_table : Shrinks BTable shTable := by
  intro bs v h
  cases h with
  | @type b tt h =>
    have g := shrinks_table_type h
    refine shortest_ok (shTable_forms g.1 (expr_null _)) (b := shTableType tt) ?_ g.2
    simp
  | @init b1 b2 tt e h1 h2 =>
    have g1 := shrinks_table_type h1; have g2 := shrinks_expr h2
    have l1 := g1.2; have l2 := g2.2
    refine shortest_ok (shTable_forms g1.1 g2.1) (b := 0x40 :: 0x00 :: (shTableType tt ++ shExpr e)) ?_ (by shlen)
    exact List.mem_append_right _ (List.mem_singleton.2 rfl)

theorem shrinks_global : Shrinks BGlobal shGlobal := by
  intro bs v h
  cases h with
  | mk h1 h2 =>
    have g1 := shrinks_global_type h1; have g2 := shrinks_expr h2
    have l1 := g1.2; have l2 := g2.2
    exact ⟨.mk g1.1 g2.1, by simp only [shGlobal]; shlen⟩

theorem shrinks_data : Shrinks BData shData := by
  intro bs v h
  cases h with
  | active0 h0 h1 h2 =>
    have g0 := sh_nat h0; have g1 := shrinks_expr h1; have g2 := shrinks_bytes h2
    have l0 := g0.2; have l1 := g1.2; have l2 := g2.2
    exact ⟨.active0 g0.1 g1.1 g2.1, by simp only [shData, if_true]; shlen⟩
  | passive h0 h1 =>
    have g0 := sh_nat h0; have g1 := shrinks_bytes h1
    have l0 := g0.2; have l1 := g1.2
    exact ⟨.passive g0.1 g1.1, by simp only [shData]; shlen⟩
  | @active b0 b1 b2 b3 x e v h0 h1 h2 h3 =>
    have g0 := sh_nat h0; have g2 := shrinks_expr h2; have g3 := shrinks_bytes h3
    have l0 := g0.2; have l1 := encU_min h1; have l2 := g2.2; have l3 := g3.2
    unfold shData
    simp only
    split
    · rename_i hx
      have hx : x = ⟨0⟩ := by cases x; simp only at hx; rw [hx]
      subst hx
      have p : (encU 0).length = 1 := by rw [encU]; simp
      have q := encU_pos 2
      exact ⟨.active0 (encU_ok 0 _ (by omega) (by omega)) g2.1 g3.1, by shlen⟩
    · exact ⟨.active g0.1 (encU32 _) g2.1 g3.1, by shlen⟩

/-! Element segments. -/

theorem funcsOf_refFuncs : ∀ ys : List FuncIdx, funcsOf (refFuncs ys) = some ys
  | [] => rfl
  | y :: ys => by
    have ih := funcsOf_refFuncs ys
    show (funcsOf (refFuncs ys)).map (y :: ·) = _
    rw [ih]; rfl

theorem refFuncs_funcsOf : ∀ {es : List Expr} {ys : List FuncIdx}, funcsOf es = some ys → es = refFuncs ys := by
  intro es
  induction es with
  | nil => intro ys h; cases h; rfl
  | cons e es ih =>
    intro ys h
    unfold funcsOf at h
    split at h
    · rename_i he; cases he
    · rename_i y es' he
      cases he
      cases h' : funcsOf es with
      | none => rw [h'] at h; cases h
      | some zs =>
        rw [h'] at h; cases h
        rw [ih h']; rfl
    · cases h

/-- What all forms of a segment have in common. -/
structure SegOk (e : Elem) : Prop where
  count : e.init.length < 2 ^ 32
  exprs : ∀ x ∈ e.init, BExpr (shExpr x) x
  offset : ∀ x o, e.mode = .Active x o → BExpr (shExpr o) o

theorem expr_func (y : FuncIdx) : BExpr (shExpr [.RefFunc y]) [.RefFunc y] :=
  (shrinks_expr (.mk (.cons (.leaf (op := .byte 0xD2) .byte (.refFunc (encU32 y.val))) .nil))).1

theorem list_count {α : Type} {B : Bytes → α → Prop} {bs : Bytes} {xs : List α} (h : BList B bs xs) :
    xs.length < 2 ^ 32 := by
  cases h with
  | mk h _ => exact BU.lt h

theorem list_each {α : Type} {B : Bytes → α → Prop} {bs : Bytes} {xs : List α} (h : BList B bs xs) :
    ∀ x ∈ xs, ∃ b, B b x := by
  cases h with
  | mk hn hs =>
    clear hn
    induction hs with
    | nil => simp
    | cons hx _ ih =>
      intro x hm
      rcases List.mem_cons.1 hm with h | h
      · subst h; exact ⟨_, hx⟩
      · exact ih x h

theorem idx_exprs {ys : List FuncIdx} : ∀ x ∈ refFuncs ys, BExpr (shExpr x) x := by
  intro x hx
  obtain ⟨y, _, rfl⟩ := List.mem_map.1 hx
  exact expr_func y

theorem idx_count {b : Bytes} {ys : List FuncIdx} (h : BList BFuncIdx b ys) : (refFuncs ys).length < 2 ^ 32 := by
  simpa [refFuncs] using list_count h

theorem expr_exprs {b : Bytes} {es : List Expr} (h : BList BExpr b es) : ∀ x ∈ es, BExpr (shExpr x) x := by
  intro x hx
  obtain ⟨_, h⟩ := list_each h x hx
  exact (shrinks_expr h).1

theorem elem_seg {bs : Bytes} {e : Elem} (h : BElem bs e) : SegOk e := by
  cases h with
  | active0 _ h1 h2 => exact ⟨idx_count h2, idx_exprs, fun _ _ e => by cases e; exact (shrinks_expr h1).1⟩
  | passive _ h2 => exact ⟨idx_count h2, idx_exprs, fun _ _ e => by cases e⟩
  | active _ _ h1 h2 => exact ⟨idx_count h2, idx_exprs, fun _ _ e => by cases e; exact (shrinks_expr h1).1⟩
  | declare _ h2 => exact ⟨idx_count h2, idx_exprs, fun _ _ e => by cases e⟩
  | active0Expr _ h1 h2 => exact ⟨list_count h2, expr_exprs h2, fun _ _ e => by cases e; exact (shrinks_expr h1).1⟩
  | passiveExpr _ _ h2 => exact ⟨list_count h2, expr_exprs h2, fun _ _ e => by cases e⟩
  | activeExpr _ _ h1 _ h2 => exact ⟨list_count h2, expr_exprs h2, fun _ _ e => by cases e; exact (shrinks_expr h1).1⟩
  | declareExpr _ _ h2 => exact ⟨list_count h2, expr_exprs h2, fun _ _ e => by cases e⟩

theorem SegOk.list {e : Elem} (h : SegOk e) : BList BExpr (encList shExpr e.init) e.init :=
  .mk (encU_ok _ _ (by omega) h.count) (encSeq_ok h.exprs)

theorem small_ok (n : Nat) (h : n < 8) : BU 32 (encU n) n := encU_ok n 32 (by omega) (by omega)

theorem exprForms_ok {e : Elem} (h : SegOk e) : ∀ c ∈ exprForms e, BElem c e := by
  have hl := h.list
  have ho := h.offset
  obtain ⟨rt, es, mode⟩ := e
  simp only at hl ho
  intro c hc
  unfold exprForms at hc
  cases mode with
  | Passive =>
    simp only [List.mem_singleton] at hc; subst hc
    exact .passiveExpr (small_ok 5 (by omega)) (shRefType_ok rt) hl
  | Declare =>
    simp only [List.mem_singleton] at hc; subst hc
    exact .declareExpr (small_ok 7 (by omega)) (shRefType_ok rt) hl
  | Active x o =>
    simp only at hc
    rcases List.mem_append.1 hc with hc | hc
    · simp only [List.mem_singleton] at hc; subst hc
      exact .activeExpr (small_ok 6 (by omega)) (encU32 _) (ho x o rfl) (shRefType_ok rt) hl
    · split at hc
      · rename_i hx
        simp only [List.mem_singleton] at hc; subst hc
        obtain ⟨x⟩ := x
        obtain ⟨rfl, rfl⟩ := hx
        exact .active0Expr (small_ok 4 (by omega)) (ho _ o rfl) hl
      · simp at hc

theorem idxForms_ok {e : Elem} (h : SegOk e) {ys : List FuncIdx} (hy : funcsOf e.init = some ys) :
    ∀ c ∈ idxForms e ys, BElem c e := by
  have hn := h.count
  have ho := h.offset
  obtain ⟨rt, es, mode⟩ := e
  simp only at hn ho hy
  have he := refFuncs_funcsOf hy
  subst he
  have hl : BList BFuncIdx (encList (fun y : FuncIdx => encU y.val.toNat) ys) ys :=
    .mk (encU_ok _ _ (by omega) (by simpa [refFuncs] using hn)) (encSeq_ok fun y _ => encU32 y.val)
  intro c hc
  unfold idxForms at hc
  simp only at hc
  split at hc
  · rename_i ht; subst ht
    cases mode with
    | Passive =>
      simp only [List.mem_singleton] at hc; subst hc
      exact .passive (small_ok 1 (by omega)) hl
    | Declare =>
      simp only [List.mem_singleton] at hc; subst hc
      exact .declare (small_ok 3 (by omega)) hl
    | Active x o =>
      simp only [List.mem_singleton] at hc; subst hc
      exact .active (small_ok 2 (by omega)) (encU32 _) (ho x o rfl) hl
  · split at hc
    · rename_i ht; subst ht
      cases mode with
      | Passive => simp at hc
      | Declare => simp at hc
      | Active x o =>
        simp only at hc
        split at hc
        · rename_i hx
          simp only [List.mem_singleton] at hc; subst hc
          obtain ⟨x⟩ := x
          simp only at hx
          subst hx
          exact .active0 (small_ok 0 (by omega)) (ho _ o rfl) hl
        · simp at hc
    · simp at hc

theorem shElem_ok {bs b : Bytes} {e : Elem} (h : BElem bs e)
    (hb : b ∈ exprForms e ∨ ∃ ys, funcsOf e.init = some ys ∧ b ∈ idxForms e ys) (hl : b.length ≤ bs.length) :
    BElem (shElem e) e ∧ (shElem e).length ≤ bs.length := by
  have hs := elem_seg h
  refine shortest_ok (b := b) (fun c hc => ?_) ?_ hl
  · rcases List.mem_append.1 hc with hc | hc
    · split at hc
      · rename_i hy; exact idxForms_ok hs hy c hc
      · simp at hc
    · exact exprForms_ok hs c hc
  · rcases hb with hb | ⟨ys, h1, h2⟩
    · exact List.mem_append_right _ hb
    · refine List.mem_append_left _ ?_
      rw [h1]; exact h2

theorem shrinks_funcs : Shrinks (BList BFuncIdx) (encList fun y : FuncIdx => encU y.val.toNat) :=
  Shrinks.list (B := BFuncIdx) (f := fun y => encU y.val.toNat) fun h => sh_u32 h

theorem shrinks_elem : Shrinks BElem shElem := by
  intro bs e h
  have hd := h
  cases h with
  | @active0 b0 b1 b2 o ys h0 h1 h2 =>
    have l0 := encU_min h0; have l1 := (shrinks_expr h1).2; have l2 := (shrinks_funcs h2).2
    refine shElem_ok hd (.inr ⟨ys, funcsOf_refFuncs ys, ?_⟩) (b := encU 0 ++ (shExpr o ++ encList (fun y : FuncIdx => encU y.val.toNat) ys))
      (by shlen)
    simp [idxForms]
  | @passive b0 b1 ys h0 h2 =>
    have l0 := encU_min h0; have l2 := (shrinks_funcs h2).2
    refine shElem_ok hd (.inr ⟨ys, funcsOf_refFuncs ys, ?_⟩) (b := encU 1 ++ (0x00 :: encList (fun y : FuncIdx => encU y.val.toNat) ys))
      (by shlen)
    simp [idxForms]
  | @active b0 b1 b2 b3 x o ys h0 hx h1 h2 =>
    have l0 := encU_min h0; have lx := encU_min hx; have l1 := (shrinks_expr h1).2; have l2 := (shrinks_funcs h2).2
    refine shElem_ok hd (.inr ⟨ys, funcsOf_refFuncs ys, ?_⟩)
      (b := encU 2 ++ (encU x.val.toNat ++ (shExpr o ++ (0x00 :: encList (fun y : FuncIdx => encU y.val.toNat) ys)))) (by shlen)
    simp [idxForms]
  | @declare b0 b1 ys h0 h2 =>
    have l0 := encU_min h0; have l2 := (shrinks_funcs h2).2
    refine shElem_ok hd (.inr ⟨ys, funcsOf_refFuncs ys, ?_⟩) (b := encU 3 ++ (0x00 :: encList (fun y : FuncIdx => encU y.val.toNat) ys))
      (by shlen)
    simp [idxForms]
  | @active0Expr b0 b1 b2 o es h0 h1 h2 =>
    have l0 := encU_min h0; have l1 := (shrinks_expr h1).2; have l2 := (shrinks_expr.list h2).2
    refine shElem_ok hd (.inl ?_) (b := encU 4 ++ (shExpr o ++ encList shExpr es)) (by shlen)
    simp [exprForms]
  | @passiveExpr b0 b1 b2 rt es h0 h1 h2 =>
    have l0 := encU_min h0; have l1 := (shrinks_ref h1).2; have l2 := (shrinks_expr.list h2).2
    refine shElem_ok hd (.inl ?_) (b := encU 5 ++ (shRefType rt ++ encList shExpr es)) (by shlen)
    simp [exprForms]
  | @activeExpr b0 b1 b2 b3 b4 x o rt es h0 hx h1 h3 h2 =>
    have l0 := encU_min h0; have lx := encU_min hx; have l1 := (shrinks_expr h1).2
    have l3 := (shrinks_ref h3).2; have l2 := (shrinks_expr.list h2).2
    refine shElem_ok hd (.inl ?_)
      (b := encU 6 ++ (encU x.val.toNat ++ (shExpr o ++ (shRefType rt ++ encList shExpr es)))) (by shlen)
    simp [exprForms]
  | @declareExpr b0 b1 b2 rt es h0 h1 h2 =>
    have l0 := encU_min h0; have l1 := (shrinks_ref h1).2; have l2 := (shrinks_expr.list h2).2
    refine shElem_ok hd (.inl ?_) (b := encU 7 ++ (shRefType rt ++ encList shExpr es)) (by shlen)
    simp [exprForms]

end Wadec
