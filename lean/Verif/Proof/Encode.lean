import Verif.Spec.Encode

/-! The canonical encoder produces encodings. -/

namespace Wadec.Spec

/-! ### Integers and lists -/

theorem encU_ok (n : Nat) : ∀ N, 0 < N → n < 2 ^ N → BU N (encU n) n := by
  induction n using Nat.strongRecOn with
  | ind n ih =>
    intro N hN hn
    rw [encU]
    split
    · rename_i h
      have : (UInt8.ofNat n).toNat = n := by rw [UInt8.toNat_ofNat']; omega
      have hb := BU.last (N := N) (n := UInt8.ofNat n) (by omega) (by omega)
      rwa [this] at hb
    · rename_i h
      have h7 : N > 7 := by
        apply Decidable.byContradiction
        intro h'
        have : 2 ^ N ≤ 2 ^ 7 := Nat.pow_le_pow_right (by omega) (by omega)
        omega
      have hp : 2 ^ N = 128 * 2 ^ (N - 7) := by
        rw [show (128 : Nat) = 2 ^ 7 by rfl, ← Nat.pow_add]; congr 1; omega
      have : (UInt8.ofNat (128 + n % 128)).toNat = 128 + n % 128 := by
        rw [UInt8.toNat_ofNat']; omega
      have hb := BU.more (N := N) (n := UInt8.ofNat (128 + n % 128)) (by omega) h7
        (ih (n / 128) (by omega) (N - 7) (by omega) (by omega))
      rw [this] at hb
      have he : 2 ^ 7 * (n / 128) + (128 + n % 128 - 2 ^ 7) = n := by omega
      rwa [he] at hb

theorem encU_pos (n : Nat) : 0 < (encU n).length := by
  rw [encU]; split <;> simp

theorem encS_ok (k : Nat) : ∀ (n : Int) N, n.natAbs ≤ k → 0 < N → -2 ^ (N - 1) ≤ n → n < 2 ^ (N - 1) →
    BS N (encS n) n := by
  induction k using Nat.strongRecOn with
  | ind k ih =>
    intro n N hk hN h1 h2
    rw [encS]
    split
    · rename_i h
      have ht : (UInt8.ofNat (n % 128).toNat).toNat = (n % 128).toNat := by
        rw [UInt8.toNat_ofNat']; omega
      by_cases h0 : 0 ≤ n
      · have he : (((n % 128).toNat : Nat) : Int) = n := by omega
        have hb := BS.pos (N := N) (n := UInt8.ofNat (n % 128).toNat) (by omega) (by
          rw [ht]
          have : (((n % 128).toNat : Nat) : Int) < ((2 ^ (N - 1) : Nat) : Int) := by
            rw [he]; simpa using h2
          exact Int.ofNat_lt.1 this)
        rw [ht, he] at hb
        exact hb
      · have he : (((n % 128).toNat : Nat) : Int) = n + 128 := by omega
        have hb := BS.neg (N := N) (n := UInt8.ofNat (n % 128).toNat) (by omega) (by omega)
          (by rw [ht, he]; omega)
        rw [ht, he] at hb
        have : n + 128 - 2 ^ 7 = n := by omega
        rwa [this] at hb
    · rename_i h
      have h7 : N > 7 := by
        apply Decidable.byContradiction
        intro h'
        have : (2 : Int) ^ (N - 1) ≤ 2 ^ 6 := by
          have : 2 ^ (N - 1) ≤ 2 ^ 6 := Nat.pow_le_pow_right (by omega) (by omega)
          exact_mod_cast this
        omega
      have hp : (2 : Int) ^ (N - 1) = 128 * 2 ^ (N - 7 - 1) := by
        rw [show (128 : Int) = 2 ^ 7 by rfl, ← Int.pow_add]; congr 1; omega
      have ht : (UInt8.ofNat (128 + (n % 128).toNat)).toNat = 128 + (n % 128).toNat := by
        rw [UInt8.toNat_ofNat']; omega
      have hb := BS.more (N := N) (n := UInt8.ofNat (128 + (n % 128).toNat)) (by omega) h7
        (ih (n / 128).natAbs (by omega) (n / 128) (N - 7) (by omega) (by omega) (by omega) (by omega))
      rw [ht] at hb
      have he : 2 ^ 7 * (n / 128) + (((128 + (n % 128).toNat : Nat) : Int) - 2 ^ 7) = n := by omega
      rwa [he] at hb

theorem encS_pos (n : Int) : 0 < (encS n).length := by
  rw [encS]; split <;> simp

theorem encU32 (v : UInt32) : BU32 (encU v.toNat) v := encU_ok _ _ (by omega) (UInt32.toNat_lt v)
theorem encU64 (v : UInt64) : BU64 (encU v.toNat) v := encU_ok _ _ (by omega) (UInt64.toNat_lt v)
theorem encI32 (v : Int32) : BI32 (encS v.toInt) v :=
  encS_ok _ _ _ (Nat.le_refl _) (by omega) (Int32.le_toInt v) (Int32.toInt_lt v)
theorem encI64 (v : Int64) : BI64 (encS v.toInt) v :=
  encS_ok _ _ _ (Nat.le_refl _) (by omega) (Int64.le_toInt v) (Int64.toInt_lt v)
theorem encS33 (v : UInt32) : BS 33 (encS v.toNat) v.toNat := by
  have := UInt32.toNat_lt v
  exact encS_ok _ _ _ (Nat.le_refl _) (by omega) (by omega) (by omega)

theorem encSeq_ok {α : Type} {B : Bytes → α → Prop} {f : α → Bytes} : ∀ {xs : List α},
    (∀ x ∈ xs, B (f x) x) → BSeq B (xs.flatMap f) xs := by
  intro xs
  induction xs with
  | nil => intro _; exact .nil
  | cons x xs ih =>
    intro h
    exact .cons (h x (by simp)) (ih fun y hy => h y (by simp [hy]))

theorem flatMap_mem_le {α : Type} {f : α → Bytes} : ∀ {xs : List α} {x : α}, x ∈ xs →
    (f x).length ≤ (xs.flatMap f).length := by
  intro xs
  induction xs with
  | nil => intro x h; cases h
  | cons y ys ih =>
    intro x h
    rw [List.flatMap_cons, List.length_append]
    rcases List.mem_cons.1 h with rfl | h
    · omega
    · have := ih h; omega

theorem flatMap_len_le {α : Type} {f : α → Bytes} : ∀ {xs : List α}, (∀ x ∈ xs, 0 < (f x).length) →
    xs.length ≤ (xs.flatMap f).length := by
  intro xs
  induction xs with
  | nil => intro _; simp
  | cons y ys ih =>
    intro h
    have h1 := h y (by simp)
    have h2 := ih fun x hx => h x (by simp [hx])
    rw [List.flatMap_cons, List.length_append, List.length_cons]
    omega

theorem encList_ok {α : Type} {B : Bytes → α → Prop} {f : α → Bytes} {xs : List α}
    (hp : ∀ x ∈ xs, 0 < (f x).length) (hf : ∀ x ∈ xs, (f x).length < 2 ^ 32 → B (f x) x)
    (h : (encList f xs).length < 2 ^ 32) : BList B (encList f xs) xs := by
  simp only [encList, List.length_append] at h
  have := flatMap_len_le hp
  refine .mk (encU_ok _ _ (by omega) (by omega)) (encSeq_ok fun x hx => hf x hx ?_)
  have := flatMap_mem_le (f := f) hx
  omega

theorem encList_pos {α : Type} {f : α → Bytes} {xs : List α} : 0 < (encList f xs).length := by
  have := encU_pos xs.length
  simp only [encList, List.length_append]
  omega

theorem encBytes_ok {bs : Bytes} (h : (encBytes bs).length < 2 ^ 32) : BByteVec (encBytes bs) bs := by
  simp only [encBytes, List.length_append] at h
  have : BSeq BByte bs bs := by
    clear h
    induction bs with
    | nil => exact .nil
    | cons b bs ih => exact .cons (b := [b]) rfl ih
  exact .mk (encU_ok _ _ (by omega) (by omega)) this

theorem encName_ok {s : Str} (hv : ValidUtf8 s.bytes) (h : (encName s).length < 2 ^ 32) :
    BName (encName s) s := ⟨encBytes_ok h, hv⟩

/-! ### Types -/

theorem encAbsHeapType_ok (t : AbsHeapType) : BAbsHeapType [encAbsHeapType t] t := by
  cases t <;> constructor

theorem encHeapType_ok (t : HeapType) : BHeapType (encHeapType t) t := by
  cases t with
  | Ht t => exact .abs (encAbsHeapType_ok t)
  | TypeIdx x => exact .idx (encS33 x)

theorem encRefType_ok (t : RefType) : BRefType (encRefType t) t := by
  obtain ⟨n, ht⟩ := t
  cases n with
  | true => exact .refNull (encHeapType_ok ht)
  | false => exact .ref (encHeapType_ok ht)

theorem encValType_ok (t : ValType) : BValType (encValType t) t := by
  cases t with
  | Num t => cases t <;> constructor
  | Vec t => cases t; constructor
  | Ref t => exact .ref (encRefType_ok t)

theorem encValType_pos (t : ValType) : 0 < (encValType t).length := by
  cases t with
  | Num t => cases t <;> simp [encValType]
  | Vec t => cases t; simp [encValType]
  | Ref t => simp [encValType, encRefType]

theorem encMut_ok (m : Mut) : BMut [encMut m] m := by cases m <;> constructor

theorem encGlobalType_ok (t : GlobalType) : BGlobalType (encGlobalType t) t :=
  .mk (encValType_ok _) (encMut_ok _)

theorem encStorageType_ok (t : StorageType) : BStorageType (encStorageType t) t := by
  cases t with
  | ValType t => exact .val (encValType_ok t)
  | PackType t => cases t <;> constructor

theorem encFieldType_ok (t : FieldType) : BFieldType (encFieldType t) t :=
  .mk (encStorageType_ok _) (encMut_ok _)

theorem encFieldType_pos (t : FieldType) : 0 < (encFieldType t).length := by
  simp [encFieldType]

theorem encCompType_ok {t : CompType} (h : (encCompType t).length < 2 ^ 32) :
    BCompType (encCompType t) t := by
  cases t with
  | Array ft => exact .array (encFieldType_ok ft)
  | Struct fts =>
    simp only [encCompType, List.length_cons] at h
    exact .struct (encList_ok (fun x _ => encFieldType_pos x) (fun x _ _ => encFieldType_ok x) (by omega))
  | Func t1 t2 =>
    simp only [encCompType, List.length_cons, List.length_append] at h
    exact .func
      (encList_ok (fun x _ => encValType_pos x) (fun x _ _ => encValType_ok x) (by omega))
      (encList_ok (fun x _ => encValType_pos x) (fun x _ _ => encValType_ok x) (by omega))

theorem encTypeIdx_ok (x : TypeIdx) : BTypeIdx (encTypeIdx x) x := encU32 _

theorem encSubType_ok {t : SubType} (h : (encSubType t).length < 2 ^ 32) : BSubType (encSubType t) t := by
  obtain ⟨f, xs, ct⟩ := t
  simp only [encSubType, List.length_cons, List.length_append] at h
  have h1 : BList BTypeIdx (encList encTypeIdx xs) xs :=
    encList_ok (fun x _ => encU_pos _) (fun x _ _ => encTypeIdx_ok x) (by omega)
  have h2 := encCompType_ok (t := ct) (by omega)
  cases f with
  | true => exact .final h1 h2
  | false => exact .open h1 h2

theorem encRecType_ok {t : RecType} (h : (encRecType t).length < 2 ^ 32) : BRecType (encRecType t) t := by
  simp only [encRecType, List.length_cons] at h
  exact .group (encList_ok (fun x _ => by simp [encSubType]) (fun x _ hx => encSubType_ok hx) (by omega))

theorem encLimits_ok (l : Limits) : BLimits (encLimits l) l := by
  obtain ⟨a, n, m⟩ := l
  cases a <;> cases m
  · exact .i32Min (encU64 _)
  · exact .i32MinMax (encU64 _) (encU64 _)
  · exact .i64Min (encU64 _)
  · exact .i64MinMax (encU64 _) (encU64 _)

theorem encLimits_pos (l : Limits) : 0 < (encLimits l).length := by
  obtain ⟨a, n, m⟩ := l
  cases a <;> cases m <;> simp [encLimits]

theorem encTableType_ok (t : TableType) : BTableType (encTableType t) t :=
  .mk (encRefType_ok _) (encLimits_ok _)
theorem encMemType_ok (t : MemType) : BMemType (encMemType t) t := encLimits_ok _
theorem encTagType_ok (t : TagType) : BTagType (encTagType t) t := .mk (encU32 _)

theorem encExternType_ok (t : ExternType) : BExternType (encExternType t) t := by
  cases t with
  | Func x => exact .func (encU32 _)
  | Table t => exact .table (encTableType_ok t)
  | Mem t => exact .mem (encMemType_ok t)
  | Global t => exact .global (encGlobalType_ok t)
  | Tag t => exact .tag (encTagType_ok t)

/-! ### Instructions -/

theorem encMemarg_ok {m : Memarg} (h : m.align.toNat < 64) : BMemarg (encMemarg m) m := by
  obtain ⟨x, a, o⟩ := m
  simp only at h
  have hn : (UInt32.ofNat (a.toNat + 64)).toNat = a.toNat + 64 := by
    rw [UInt32.toNat_ofNat']; omega
  refine BMemarg.memx (n := UInt32.ofNat (a.toNat + 64)) ?_ (by omega) (by omega) (by omega)
    (encU32 _) (encU64 _)
  have := encU32 (UInt32.ofNat (a.toNat + 64))
  rwa [hn] at this

theorem encBlockType_ok (t : BlockType) : BBlockType (encBlockType t) t := by
  cases t with
  | Empty => exact .empty
  | T t => exact .val (encValType_ok t)
  | I x => exact .idx (encS33 x)

theorem encCatch_ok (c : Catch) : BCatch (encCatch c) c := by
  cases c with
  | Catch x l => exact .catch (encU32 _) (encU32 _)
  | CatchRef x l => exact .catchRef (encU32 _) (encU32 _)
  | CatchAll l => exact .catchAll (encU32 _)
  | CatchAllRef l => exact .catchAllRef (encU32 _)

theorem encCatch_pos (c : Catch) : 0 < (encCatch c).length := by cases c <;> simp [encCatch]

theorem encCastop_ok (n1 n2 : Bool) : BCastop [encCastop n1 n2] (n1, n2) := by
  cases n1 <;> cases n2 <;> constructor

/-- The number of a prefixed opcode is a `u32`. -/
def Opcode.small : Opcode → Prop
  | .byte _ => True
  | .fb n | .fc n | .fd n => n < 2 ^ 32

theorem encOpcode_ok {op : Opcode} (h : op.small) : BOpcode (encOpcode op) op := by
  cases op with
  | byte b => exact .byte
  | fb n => exact .fb (encU_ok _ _ (by omega) h)
  | fc n => exact .fc (encU_ok _ _ (by omega) h)
  | fd n => exact .fd (encU_ok _ _ (by omega) h)

theorem small_plain (op : PlainOp) : (opcodeOfPlainOp op).small := by
  cases op <;> simp [opcodeOfPlainOp, Opcode.small]
theorem small_mem (op : MemOp) : (opcodeOfMemOp op).small := by
  cases op <;> simp [opcodeOfMemOp, Opcode.small]
theorem small_memLane (op : MemLaneOp) : (opcodeOfMemLaneOp op).small := by
  cases op <;> simp [opcodeOfMemLaneOp, Opcode.small]
theorem small_lane (op : LaneOp) : (opcodeOfLaneOp op).small := by
  cases op <;> simp [opcodeOfLaneOp, Opcode.small]

theorem encLeaf_small {i : Instr} {op : Opcode} {imms : Bytes} (h : encLeaf i = some (op, imms)) :
    op.small := by
  revert h
  cases i with
  | plain o => intro h; cases h; exact small_plain o
  | mem o m => intro h; cases h; exact small_mem o
  | memLane o m l => intro h; cases h; exact small_memLane o
  | lane o l => intro h; cases h; exact small_lane o
  | RefTest rt => intro h; cases h; cases rt.nullable <;> simp [Opcode.small]
  | RefCast rt => intro h; cases h; cases rt.nullable <;> simp [Opcode.small]
  | Select ts => cases ts <;> (intro h; cases h; trivial)
  | _ => intro h; cases h; try simp [Opcode.small]

theorem encLeaf_ok {i : Instr} {op : Opcode} {imms : Bytes} (h : encLeaf i = some (op, imms))
    (hm : ∀ o m, i = .mem o m → m.align.toNat < 64)
    (hl : ∀ o m l, i = .memLane o m l → m.align.toNat < 64) (hlen : imms.length < 2 ^ 32) :
    Leaf op imms i := by
  revert h
  cases i with
  | mem o m => intro h; cases h; exact .mem (encMemarg_ok (hm o m rfl))
  | memLane o m l => intro h; cases h; exact .memLane (encMemarg_ok (hl o m l rfl)) rfl
  | lane o l => intro h; cases h; exact .lane rfl
  | BrTable ls l =>
    intro h; cases h
    simp only [List.length_append] at hlen
    exact .brTable (encList_ok (fun x _ => encU_pos _) (fun x _ _ => encU32 _) (by omega)) (encU32 _)
  | RefTest rt =>
    obtain ⟨n, ht⟩ := rt
    intro h; cases h
    cases n
    · exact .refTest (encHeapType_ok ht)
    · exact .refTestNull (encHeapType_ok ht)
  | RefCast rt =>
    obtain ⟨n, ht⟩ := rt
    intro h; cases h
    cases n
    · exact .refCast (encHeapType_ok ht)
    · exact .refCastNull (encHeapType_ok ht)
  | BrOnCast l rt1 rt2 =>
    intro h; cases h
    exact .brOnCast (encCastop_ok _ _) (encU32 _) (encHeapType_ok _) (encHeapType_ok _)
  | BrOnCastFail l rt1 rt2 =>
    intro h; cases h
    exact .brOnCastFail (encCastop_ok _ _) (encU32 _) (encHeapType_ok _) (encHeapType_ok _)
  | RefNull ht => intro h; cases h; exact .refNull (encHeapType_ok ht)
  | Select ts =>
    cases ts with
    | none => intro h; cases h; exact .select
    | some ts =>
      intro h; cases h
      exact .selectT (encList_ok (fun x _ => encValType_pos x) (fun x _ _ => encValType_ok x) hlen)
  | I32Const v => intro h; cases h; exact .i32Const (encI32 v)
  | I64Const v => intro h; cases h; exact .i64Const (encI64 v)
  | F32Const v => intro h; cases h; exact .f32Const rfl
  | F64Const v => intro h; cases h; exact .f64Const rfl
  | Block bt is => intro h; cases h
  | Loop bt is => intro h; cases h
  | If bt is e => intro h; cases h
  | TryTable bt cs is => intro h; cases h
  | _ =>
    intro h; cases h
    constructor <;> first | exact encU32 _

theorem encInstr_leaf {i : Instr} {op : Opcode} {imms : Bytes} (h : encLeaf i = some (op, imms)) :
    encInstr i = encOpcode op ++ imms := by
  rw [encInstr]
  · rw [h]
  all_goals (intros; subst_vars; cases h)

theorem encInstrs_ok : ∀ {is : List Instr},
    (∀ i ∈ is, (encInstr i).length < 2 ^ 32 → BInstr (encInstr i) i) →
    (encInstrs is).length < 2 ^ 32 → BInstrs (encInstrs is) is := by
  intro is
  induction is with
  | nil => intro _ _; simpa [encInstrs] using BInstrs.nil
  | cons i is ih =>
    intro h hl
    simp only [encInstrs, List.length_append] at hl ⊢
    exact .cons (h i (by simp) (by omega)) (ih (fun j hj => h j (by simp [hj])) (by omega))

theorem encInstr_ok {i : Instr} (ha : Aligned i) : (encInstr i).length < 2 ^ 32 →
    BInstr (encInstr i) i := by
  induction ha with
  | @mem op m h =>
    intro hl
    rw [encInstr_leaf (op := opcodeOfMemOp op) (imms := encMemarg m) rfl] at hl ⊢
    rw [List.length_append] at hl
    exact .leaf (encOpcode_ok (small_mem op)) (.mem (encMemarg_ok h))
  | @memLane op m l h =>
    intro hl
    rw [encInstr_leaf (op := opcodeOfMemLaneOp op) (imms := encMemarg m ++ [l.val]) rfl] at hl ⊢
    exact .leaf (encOpcode_ok (small_memLane op)) (.memLane (encMemarg_ok h) rfl)
  | @leaf i h1 h2 h3 =>
    intro hl
    cases he : encLeaf i with
    | none => exact absurd he h3
    | some p =>
      obtain ⟨op, imms⟩ := p
      rw [encInstr_leaf he] at hl ⊢
      rw [List.length_append] at hl
      exact .leaf (encOpcode_ok (encLeaf_small he)) (encLeaf_ok he (fun o m e => absurd e (h1 o m))
        (fun o m l e => absurd e (h2 o m l)) (by omega))
  | block _ ih =>
    intro hl
    simp only [encInstr, List.length_cons, List.length_append] at hl ⊢
    exact .block (encBlockType_ok _) (encInstrs_ok ih (by omega))
  | loop _ ih =>
    intro hl
    simp only [encInstr, List.length_cons, List.length_append] at hl ⊢
    exact .loop (encBlockType_ok _) (encInstrs_ok ih (by omega))
  | «if» _ ih =>
    intro hl
    simp only [encInstr, encElse, List.length_cons, List.length_append] at hl ⊢
    exact .if (encBlockType_ok _) (encInstrs_ok ih (by omega))
  | @ifElse bt is1 is2 _ _ ih1 ih2 =>
    intro hl
    simp only [encInstr, encElse, List.length_cons, List.length_append] at hl ⊢
    have := BInstr.ifElse (encBlockType_ok bt) (encInstrs_ok ih1 (by omega)) (encInstrs_ok ih2 (by omega))
    simpa using this
  | tryTable _ ih =>
    intro hl
    simp only [encInstr, List.length_cons, List.length_append] at hl ⊢
    exact .tryTable (encBlockType_ok _)
      (encList_ok (fun x _ => encCatch_pos x) (fun x _ _ => encCatch_ok x) (by omega))
      (encInstrs_ok ih (by omega))

theorem encExpr_ok {e : Expr} (ha : AlignedExpr e) (hl : (encExpr e).length < 2 ^ 32) :
    BExpr (encExpr e) e := by
  simp only [encExpr, List.length_append] at hl
  exact .mk (encInstrs_ok (fun i hi => encInstr_ok (ha i hi)) (by omega))

/-! ### Sections -/

theorem encImport_ok {i : Import} (h1 : ValidUtf8 i.module_name.bytes) (h2 : ValidUtf8 i.item_name.bytes)
    (hl : (encImport i).length < 2 ^ 32) : BImport (encImport i) i := by
  simp only [encImport, List.length_append] at hl
  exact .mk (encName_ok h1 (by omega)) (encName_ok h2 (by omega)) (encExternType_ok _)

theorem encExternIdx_ok (x : ExternIdx) : BExternIdx (encExternIdx x) x := by
  cases x with
  | Func x => exact .func (encU32 _)
  | Table x => exact .table (encU32 _)
  | Mem x => exact .mem (encU32 _)
  | Global x => exact .global (encU32 _)
  | Tag x => exact .tag (encU32 _)

theorem encExport_ok {e : Export} (h : ValidUtf8 e.name.bytes) (hl : (encExport e).length < 2 ^ 32) :
    BExport (encExport e) e := by
  simp only [encExport, List.length_append] at hl
  exact .mk (encName_ok h (by omega)) (encExternIdx_ok _)

theorem encTable_ok {t : Table} (h : AlignedExpr t.init) (hl : (encTable t).length < 2 ^ 32) :
    BTable (encTable t) t := by
  simp only [encTable, List.length_cons, List.length_append] at hl
  exact .init (encTableType_ok _) (encExpr_ok h (by omega))

theorem encGlobal_ok {g : Global} (h : AlignedExpr g.init) (hl : (encGlobal g).length < 2 ^ 32) :
    BGlobal (encGlobal g) g := by
  simp only [encGlobal, List.length_append] at hl
  exact .mk (encGlobalType_ok _) (encExpr_ok h (by omega))

theorem encElem_ok {e : Elem} (h1 : ∀ x ∈ e.init, AlignedExpr x)
    (h2 : ∀ x o, e.mode = .Active x o → AlignedExpr o) (hl : (encElem e).length < 2 ^ 32) :
    BElem (encElem e) e := by
  obtain ⟨rt, es, mode⟩ := e
  have he : (encList encExpr es).length < 2 ^ 32 → BList BExpr (encList encExpr es) es := fun h =>
    encList_ok (fun x _ => by simp [encExpr]) (fun x hx hl => encExpr_ok (h1 x hx) hl) h
  cases mode with
  | Passive =>
    simp only [encElem, List.length_append] at hl
    exact .passiveExpr (encU_ok 5 _ (by omega) (by omega)) (encRefType_ok _) (he (by omega))
  | Active x o =>
    simp only [encElem, List.length_append] at hl
    exact .activeExpr (encU_ok 6 _ (by omega) (by omega)) (encU32 _) (encExpr_ok (h2 x o rfl) (by omega))
      (encRefType_ok _) (he (by omega))
  | Declare =>
    simp only [encElem, List.length_append] at hl
    exact .declareExpr (encU_ok 7 _ (by omega) (by omega)) (encRefType_ok _) (he (by omega))

theorem encElem_pos (e : Elem) : 0 < (encElem e).length := by
  have := encU_pos
  obtain ⟨rt, es, mode⟩ := e
  cases mode <;> simp only [encElem, List.length_append]
  · have := this 5; omega
  · have := this 6; omega
  · have := this 7; omega

theorem encData_ok {d : Data} (h : ∀ x o, d.mode = .Active x o → AlignedExpr o)
    (hl : (encData d).length < 2 ^ 32) : BData (encData d) d := by
  obtain ⟨bs, mode⟩ := d
  cases mode with
  | Passive =>
    simp only [encData, List.length_append] at hl
    exact .passive (encU_ok 1 _ (by omega) (by omega)) (encBytes_ok (by simp only; omega))
  | Active x o =>
    simp only [encData, List.length_append] at hl
    exact .active (encU_ok 2 _ (by omega) (by omega)) (encU32 _) (encExpr_ok (h x o rfl) (by omega))
      (encBytes_ok (by simp only; omega))

theorem encData_pos (d : Data) : 0 < (encData d).length := by
  have := encU_pos
  obtain ⟨bs, mode⟩ := d
  cases mode <;> simp only [encData, List.length_append]
  · have := this 1; omega
  · have := this 2; omega

theorem runsOf_head {l : List ValType} {n : UInt32} {t : ValType} {rs : List (UInt32 × ValType)} :
    localsOf (runsOf l) = l → runsOf l = (n, t) :: rs → n.toNat ≤ l.length := by
  intro h1 h2
  rw [h2] at h1
  rw [← h1]
  simp [localsOf]

theorem localsOf_runsOf : ∀ {l : List ValType}, l.length < 2 ^ 32 → localsOf (runsOf l) = l := by
  intro l
  induction l with
  | nil => intro _; rfl
  | cons t ts ih =>
    intro hl
    rw [List.length_cons] at hl
    have ih := ih (by omega)
    rw [runsOf]
    cases h : runsOf ts with
    | nil =>
      rw [h] at ih
      simp only [localsOf, List.flatMap_nil] at ih
      subst ih
      rfl
    | cons p rs =>
      obtain ⟨n, t'⟩ := p
      have hn := runsOf_head ih h
      rw [h] at ih
      simp only
      split
      · rename_i he
        subst he
        have : (n + 1).toNat = n.toNat + 1 := by
          rw [UInt32.toNat_add]; simp; omega
        simp only [localsOf, List.flatMap_cons, this, List.replicate_succ, List.cons_append] at ih ⊢
        rw [ih]
      · simp only [localsOf, List.flatMap_cons] at ih ⊢
        rw [ih]
        rfl

theorem encRun_ok (r : UInt32 × ValType) : BLocals (encRun r) r := .mk (encU32 _) (encValType_ok _)

theorem encRun_pos (r : UInt32 × ValType) : 0 < (encRun r).length := by
  have := encU_pos r.1.toNat
  simp only [encRun, List.length_append]
  omega

theorem encCode_ok {c : CodeEntry} (h1 : c.locals.length < 2 ^ 32) (h2 : AlignedExpr c.body)
    (hl : (encCode c).length < 2 ^ 32) : BCode (encCode c) c := by
  obtain ⟨ls, e⟩ := c
  simp only [encCode, encFuncBody, List.length_append] at hl
  simp only at h1 h2
  refine .mk (encU_ok _ _ (by omega) ?_) ?_
  · simp only [encFuncBody, List.length_append]; omega
  · have hr := localsOf_runsOf h1
    have := BFunc.mk (runs := runsOf ls) (e := e)
      (encList_ok (fun x _ => encRun_pos x) (fun x _ _ => encRun_ok x) (by omega))
      (encExpr_ok h2 (by omega)) (by rw [hr]; exact h1)
    rw [hr] at this
    exact this

theorem encCode_pos (c : CodeEntry) : 0 < (encCode c).length := by
  have := encU_pos (encFuncBody c).length
  simp only [encCode, List.length_append]
  omega

theorem encContents_ok {s : Section} (he : Encodable s) (hl : (encContents s).length < 2 ^ 32) :
    BContents (encContents s) s := by
  cases s with
  | custom c =>
    simp only [encContents, encCustom, List.length_append] at hl
    exact .custom (.mk (encName_ok he (by omega)))
  | type l => exact .type (encList_ok (fun x _ => by simp [encRecType]) (fun x _ h => encRecType_ok h) hl)
  | «import» l =>
    refine .import (encList_ok (fun x _ => ?_) (fun x hx h => encImport_ok (he x hx).1 (he x hx).2 h) hl)
    have := encU_pos x.module_name.bytes.length
    simp only [encImport, encName, encBytes, List.length_append]; omega
  | function l => exact .function (encList_ok (fun x _ => encU_pos _) (fun x _ _ => encTypeIdx_ok x) hl)
  | table l => exact .table (encList_ok (fun x _ => by simp [encTable])
      (fun x hx h => encTable_ok (he x hx) h) hl)
  | memory l => exact .memory (encList_ok (fun x _ => encLimits_pos _) (fun x _ _ => encMemType_ok x) hl)
  | tag l => exact .tag (encList_ok (fun x _ => by simp [encTagType]) (fun x _ _ => encTagType_ok x) hl)
  | global l => exact .global (encList_ok (fun x _ => by simp [encGlobal, encGlobalType]; omega)
      (fun x hx h => encGlobal_ok (he x hx) h) hl)
  | «export» l =>
    refine .export (encList_ok (fun x _ => ?_) (fun x hx h => encExport_ok (he x hx) h) hl)
    have := encU_pos x.name.bytes.length
    simp only [encExport, encName, encBytes, List.length_append]; omega
  | start x => exact .start (encU32 _)
  | element l => exact .element (encList_ok (fun x _ => encElem_pos x)
      (fun x hx h => encElem_ok (he x hx).1 (he x hx).2 h) hl)
  | dataCount n => exact .dataCount (encU32 _)
  | code l => exact .code (encList_ok (fun x _ => encCode_pos x)
      (fun x hx h => encCode_ok (he x hx).1 (he x hx).2 h) hl)
  | data l => exact .data (encList_ok (fun x _ => encData_pos x) (fun x hx h => encData_ok (he x hx) h) hl)

/-- The size and the section. -/
def sized (s : Section) : UInt32 × Section := (UInt32.ofNat (encContents s).length, s)

theorem encSection_ok {s : Section} (he : Encodable s) (hl : (encContents s).length < 2 ^ 32) :
    BSection (encSection s) (sized s) := by
  have hs : (UInt32.ofNat (encContents s).length).toNat = (encContents s).length := by
    rw [UInt32.toNat_ofNat']; omega
  refine .mk ?_ hs.symm (encContents_ok he hl)
  have := encU32 (UInt32.ofNat (encContents s).length)
  rwa [hs] at this

theorem encSections_ok : ∀ {ss : List Section},
    (∀ s ∈ ss, Encodable s ∧ (encContents s).length < 2 ^ 32) →
    BSeq BSection (ss.flatMap encSection) (ss.map sized) := by
  intro ss
  induction ss with
  | nil => intro _; exact .nil
  | cons s ss ih =>
    intro h
    have h0 := h s (by simp)
    exact .cons (encSection_ok h0.1 h0.2) (ih fun x hx => h x (by simp [hx]))

end Wadec.Spec
