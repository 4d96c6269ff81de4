import Verif.Proof.Pays

/-! C69: every decoder pays for its steps. -/

namespace Wadec.Counted

variable {R : Type} {ε ε' α β σ : Type} [Metered R] {K : Nat} [hr : Rate K]

/-! ### What reads nothing -/

class Free (K : Nat) (d : Dec R ε α) (s : outParam Nat) : Prop where
  pays : Pays K s d (fun _ => 0)

theorem Free.bind {c s : Nat} {d : Dec R ε α} {f : α → Dec R ε β} {c' : β → Nat} [h : Free K d s] (hc : s ≤ c)
    (hf : ∀ v, Pays K (c - s) (f v) c') : Pays K c (d >>= f) c' := Pays.bind h.pays hc hf

theorem Free.last {c s : Nat} {d : Dec R ε α} {c' : α → Nat} [h : Free K d s] (hc : s ≤ c) (hc' : ∀ v, c' v ≤ c - s) :
    Pays K c d c' := Pays.weaken h.pays hc hc'

instance free_mapErr {d : Dec R ε α} {f : ε → ε'} {s : Nat} [h : Free K d s] : Free K (d.mapErr f) s := ⟨Pays.mapErr h.pays⟩

macro_rules | `(tactic| pay1) => `(tactic| with_reducible first
  | refine Free.bind (by omega) fun _ => ?_
  | exact Free.last (by omega) (fun _ => by omega))

instance free_i64ToU32 (x : Int64) : Free (R := R) (ε := ε) K (i64ToU32 x) 1 := ⟨by unfold i64ToU32; pay⟩

/-! ### Integers -/

theorem pays_decodeU32Loop : ∀ n a b c, Pays (R := R) K 6 (decodeU32Loop n a b c) (fun _ => K)
  | 0, _, _, _ => Pays.step (by omega) Pays.err
  | n + 1, a, b, c => by
    have hK : 64 ≤ K := Rate.le
    have ih := fun a b c k => Pays.weaken (c := k) (c' := fun _ => K) (pays_decodeU32Loop n a b c)
    unfold decodeU32Loop
    pay
    all_goals exact ih _ _ _ _ (by omega) (fun _ => by omega)

theorem pays_decodeU64Loop : ∀ n a b c, Pays (R := R) K 6 (decodeU64Loop n a b c) (fun _ => K)
  | 0, _, _, _ => Pays.step (by omega) Pays.err
  | n + 1, a, b, c => by
    have hK : 64 ≤ K := Rate.le
    have ih := fun a b c k => Pays.weaken (c := k) (c' := fun _ => K) (pays_decodeU64Loop n a b c)
    unfold decodeU64Loop
    pay
    all_goals exact ih _ _ _ _ (by omega) (fun _ => by omega)

theorem pays_decodeI32Loop : ∀ n a b, Pays (R := R) K 6 (decodeI32Loop n a b) (fun _ => K)
  | 0, _, _ => Pays.step (by omega) Pays.err
  | n + 1, a, b => by
    have hK : 64 ≤ K := Rate.le
    have ih := fun a b k => Pays.weaken (c := k) (c' := fun _ => K) (pays_decodeI32Loop n a b)
    unfold decodeI32Loop
    pay
    all_goals exact ih _ _ _ (by omega) (fun _ => by omega)

theorem pays_decodeI64Loop : ∀ n a b, Pays (R := R) K 6 (decodeI64Loop n a b) (fun _ => K)
  | 0, _, _ => Pays.step (by omega) Pays.err
  | n + 1, a, b => by
    have hK : 64 ≤ K := Rate.le
    have ih := fun a b k => Pays.weaken (c := k) (c' := fun _ => K) (pays_decodeI64Loop n a b)
    unfold decodeI64Loop
    pay
    all_goals exact ih _ _ _ (by omega) (fun _ => by omega)

theorem pays_decodeS33Loop : ∀ n a b, Pays (R := R) K 6 (decodeS33Loop n a b) (fun _ => K)
  | 0, _, _ => Pays.step (by omega) Pays.err
  | n + 1, a, b => by
    have hK : 64 ≤ K := Rate.le
    have ih := fun a b k => Pays.weaken (c := k) (c' := fun _ => K) (pays_decodeS33Loop n a b)
    unfold decodeS33Loop
    pay
    all_goals exact ih _ _ _ (by omega) (fun _ => by omega)

instance cost_decodeU32 : Cost (R := R) K decodeU32 7 := ⟨Pays.step (by omega) (pays_decodeU32Loop _ _ _ _)⟩
instance cost_decodeU64 : Cost (R := R) K decodeU64 7 := ⟨Pays.step (by omega) (pays_decodeU64Loop _ _ _ _)⟩
instance cost_decodeI32 : Cost (R := R) K decodeI32 7 := ⟨Pays.step (by omega) (pays_decodeI32Loop _ _ _)⟩
instance cost_decodeI64 : Cost (R := R) K decodeI64 7 := ⟨Pays.step (by omega) (pays_decodeI64Loop _ _ _)⟩
instance cost_decodeS33 : Cost (R := R) K decodeS33 7 := ⟨Pays.step (by omega) (pays_decodeS33Loop _ _ _)⟩
instance cost_TypeIdx_decode : Cost (R := R) K TypeIdx.decode 8 := ⟨by
  have hK : 64 ≤ K := Rate.le
  unfold TypeIdx.decode; pay⟩
instance cost_FuncIdx_decode : Cost (R := R) K FuncIdx.decode 8 := ⟨by
  have hK : 64 ≤ K := Rate.le
  unfold FuncIdx.decode; pay⟩
instance cost_TableIdx_decode : Cost (R := R) K TableIdx.decode 8 := ⟨by
  have hK : 64 ≤ K := Rate.le
  unfold TableIdx.decode; pay⟩
instance cost_MemIdx_decode : Cost (R := R) K MemIdx.decode 8 := ⟨by
  have hK : 64 ≤ K := Rate.le
  unfold MemIdx.decode; pay⟩
instance cost_GlobalIdx_decode : Cost (R := R) K GlobalIdx.decode 8 := ⟨by
  have hK : 64 ≤ K := Rate.le
  unfold GlobalIdx.decode; pay⟩
instance cost_ElemIdx_decode : Cost (R := R) K ElemIdx.decode 8 := ⟨by
  have hK : 64 ≤ K := Rate.le
  unfold ElemIdx.decode; pay⟩
instance cost_DataIdx_decode : Cost (R := R) K DataIdx.decode 8 := ⟨by
  have hK : 64 ≤ K := Rate.le
  unfold DataIdx.decode; pay⟩
instance cost_LocalIdx_decode : Cost (R := R) K LocalIdx.decode 8 := ⟨by
  have hK : 64 ≤ K := Rate.le
  unfold LocalIdx.decode; pay⟩
instance cost_LabelIdx_decode : Cost (R := R) K LabelIdx.decode 8 := ⟨by
  have hK : 64 ≤ K := Rate.le
  unfold LabelIdx.decode; pay⟩
instance cost_TagIdx_decode : Cost (R := R) K TagIdx.decode 8 := ⟨by
  have hK : 64 ≤ K := Rate.le
  unfold TagIdx.decode; pay⟩

instance cost_F32 : Cost (R := R) K decodeF32 5 := ⟨by
  have hK : 64 ≤ K := Rate.le
  exact Pays.step (by omega) (Pays.bind (Pays.mapErr (pays_readExact' 4 (c := 4) (by omega))) (by omega) fun _ => Pays.pure (by omega))⟩
instance cost_F64 : Cost (R := R) K decodeF64 5 := ⟨by
  have hK : 64 ≤ K := Rate.le
  exact Pays.step (by omega) (Pays.bind (Pays.mapErr (pays_readExact' 8 (c := 4) (by omega))) (by omega) fun _ => Pays.pure (by omega))⟩

/-! ### Lists -/

/-- the sum of `g` over a list -/
def total (g : α → Nat) (xs : List α) : Nat := (xs.map g).sum

theorem total_append (g : α → Nat) (xs ys : List α) : total g (xs ++ ys) = total g xs + total g ys := by
  simp [total]
theorem total_one (g : α → Nat) (x : α) : total g [x] = g x := by simp [total]
theorem total_nil (g : α → Nat) : total g [] = 0 := rfl
theorem total_cons (g : α → Nat) (x : α) (xs : List α) : total g (x :: xs) = g x + total g xs := by simp [total]
theorem total_length (xs : List α) : total (fun _ => 1) xs = xs.length := by
  induction xs with
  | nil => rfl
  | cons x xs ih => rw [total_cons, ih, List.length_cons]; omega

omit hr in
theorem pays_listLoop {a : Nat} {g : α → Nat} {f : σ → Dec R ε (α × σ)} (hf : ∀ st, Pays K a (f st) (fun x => a + 1 + g x.1)) :
    ∀ n i st items, Pays K (a + 1 + total g items) (decodeListLoop f n i st items) (fun x => a + total g x.1)
  | 0, _, _, _ => Pays.step (by omega) (Pays.pure (by simp only; omega))
  | n + 1, i, st, items => by
    refine Pays.step (by omega) (Pays.bind (Pays.mapErr (hf st)) (by omega) fun ⟨x, st'⟩ => ?_)
    refine Pays.weaken (pays_listLoop hf n (i + 1) st' (items ++ [x])) ?_ fun v => ?_
    · rw [total_append, total_one]; simp only; omega
    · rw [total_append, total_one]; simp only; omega

theorem pays_listS {a : Nat} {g : α → Nat} {f : σ → Dec R ε (α × σ)} {st : σ} (hf : ∀ st, Pays K a (f st) (fun x => a + 1 + g x.1))
    (ha : a + 1 ≤ K) : Pays K 10 (decodeListS f st) (fun x => K + total g x.1) := by
  refine Pays.step (by omega) (Cost.bind (by omega) fun n => ?_)
  refine Pays.bind (Pays.reserve (by omega)) (Nat.le_refl _) fun _ => ?_
  refine Pays.weaken (pays_listLoop hf n.toNat 0 st []) ?_ fun v => ?_
  · rw [total_nil]; omega
  · rw [total_nil]; omega

theorem pays_list {a : Nat} (g : α → Nat) {f : Dec R ε α} (hf : Pays K a f (fun x => a + 1 + g x)) (ha : a + 1 ≤ K) :
    Pays K 11 (decodeList f) (fun x => K + total g x) := by
  refine Pays.step (by omega) (Pays.bind (pays_listS (g := g) (fun _ => Pays.bind hf (Nat.le_refl _) fun x => Pays.pure ?_) ha)
    (by omega) fun ⟨xs, _⟩ => Pays.pure ?_)
  · simp only; omega
  · simp only; omega

/-- An element that is cheap enough. -/
theorem cost_list {a : Nat} {f : Dec R ε α} [h : Cost K f a] (ha : a + 1 ≤ K) : Cost K (decodeList f) 11 :=
  ⟨Pays.weaken (pays_list (fun _ => 0) (a := a) (Pays.weaken h.pays (Nat.le_refl _) fun _ => by omega) ha) (Nat.le_refl _)
    fun _ => by omega⟩

/-- The first argument is a number that is small enough. -/
class Small (a : Nat) : Prop where
  le : a + 1 ≤ 64
instance {a : Nat} {f : Dec R ε α} [Cost K f a] [Small a] : Cost K (decodeList f) 11 :=
  cost_list (Nat.le_trans (Small.le (a := a)) (Rate.le (K := K)))
instance : Small 8 := ⟨by decide⟩
instance : Small 18 := ⟨by decide⟩
instance : Small 25 := ⟨by decide⟩
instance : Small 12 := ⟨by decide⟩
instance : Small 7 := ⟨by decide⟩
instance : Small 6 := ⟨by decide⟩
instance : Small 9 := ⟨by decide⟩
instance : Small 13 := ⟨by decide⟩
instance : Small 14 := ⟨by decide⟩
instance : Small 20 := ⟨by decide⟩
instance : Small 41 := ⟨by decide⟩

theorem pays_byteVector : Pays (R := R) K 11 decodeByteVector (fun v => K + v.length) := by
  have hK : 64 ≤ K := Rate.le
  refine Pays.step (by omega) (Cost.bind (by omega) fun n => ?_)
  refine Pays.bind (Pays.reserve (by omega)) (Nat.le_refl _) fun _ => ?_
  refine Pays.weaken (Pays.mapErr (pays_readExact n.toNat (c := 2) (by omega))) (by omega) fun v => ?_
  have := Nat.mul_le_mul_right v.length hK
  omega
instance : Cost (R := R) K decodeByteVector 11 := ⟨Pays.weaken pays_byteVector (Nat.le_refl _) fun _ => by omega⟩

instance : Cost (R := R) K decodeName 12 := ⟨by
  refine Pays.step (by omega) (Pays.bind (Pays.mapErr pays_byteVector) (by omega) fun v => ?_)
  pay⟩

/-! ### Types -/

instance cost_HeapType_decode : Cost (R := R) K HeapType.decode 14 := ⟨by
  have hK : 64 ≤ K := Rate.le
  unfold HeapType.decode; pay⟩
instance cost_AbsHeapType_decode : Cost (R := R) K AbsHeapType.decode 6 := ⟨by
  have hK : 64 ≤ K := Rate.le
  unfold AbsHeapType.decode; pay⟩
instance cost_RefType_decode : Cost (R := R) K RefType.decode 12 := ⟨by
  have hK : 64 ≤ K := Rate.le
  unfold RefType.decode; pay⟩
instance cost_ValType_decode : Cost (R := R) K ValType.decode 18 := ⟨by
  have hK : 64 ≤ K := Rate.le
  unfold ValType.decode; pay⟩
instance cost_decodeResultType : Cost (R := R) K decodeResultType 12 := ⟨by
  have hK : 64 ≤ K := Rate.le
  unfold decodeResultType; pay⟩
instance cost_GlobalType_decode : Cost (R := R) K GlobalType.decode 19 := ⟨by
  have hK : 64 ≤ K := Rate.le
  unfold GlobalType.decode; pay⟩
instance cost_decodeStorageType : Cost (R := R) K decodeStorageType 24 := ⟨by
  have hK : 64 ≤ K := Rate.le
  unfold decodeStorageType; pay⟩
instance cost_decodeFieldType : Cost (R := R) K decodeFieldType 25 := ⟨by
  have hK : 64 ≤ K := Rate.le
  unfold decodeFieldType; pay⟩
instance cost_CompType_decode : Cost (R := R) K CompType.decode 6 := ⟨by
  have hK : 64 ≤ K := Rate.le
  unfold CompType.decode; pay⟩
instance cost_SubType_decode : Cost (R := R) K SubType.decode 12 := ⟨by
  have hK : 64 ≤ K := Rate.le
  unfold SubType.decode; pay⟩
instance cost_RecType_decode : Cost (R := R) K RecType.decode 18 := ⟨by
  have hK : 64 ≤ K := Rate.le
  unfold RecType.decode; pay⟩
instance cost_parseLimitsRest (has_max : Bool) (address_type : AddrType) : Cost (R := R) K (parseLimitsRest has_max address_type) 8 := ⟨by
  have hK : 64 ≤ K := Rate.le
  unfold parseLimitsRest; pay⟩
instance cost_parseLimits : Cost (R := R) K parseLimits 6 := ⟨by
  have hK : 64 ≤ K := Rate.le
  unfold parseLimits; pay⟩
instance cost_parseMemType : Cost (R := R) K parseMemType 7 := ⟨by
  have hK : 64 ≤ K := Rate.le
  unfold parseMemType; pay⟩
instance cost_TableType_decode : Cost (R := R) K TableType.decode 13 := ⟨by
  have hK : 64 ≤ K := Rate.le
  unfold TableType.decode; pay⟩
instance cost_TagType_decode : Cost (R := R) K TagType.decode 6 := ⟨by
  have hK : 64 ≤ K := Rate.le
  unfold TagType.decode; pay⟩
instance cost_ExternType_decode : Cost (R := R) K ExternType.decode 6 := ⟨by
  have hK : 64 ≤ K := Rate.le
  unfold ExternType.decode; pay⟩
instance cost_Memarg_decode : Cost (R := R) K Memarg.decode 8 := ⟨by
  have hK : 64 ≤ K := Rate.le
  unfold Memarg.decode; pay⟩
instance cost_LaneIdx_decode : Cost (R := R) K LaneIdx.decode 6 := ⟨by
  have hK : 64 ≤ K := Rate.le
  unfold LaneIdx.decode; pay⟩
instance cost_blockTypeIndex : Cost (R := R) K blockTypeIndex 9 := ⟨by
  have hK : 64 ≤ K := Rate.le
  unfold blockTypeIndex; pay⟩
instance cost_BlockType_decode : Cost (R := R) K BlockType.decode (K + 33) := ⟨by
  have hK : 64 ≤ K := Rate.le
  refine Pays.step (by omega) (Cost.bind (by omega) fun b => Pays.ite (fun _ => Pays.pure (by omega)) fun _ => ?_)
  refine Pays.weaken (c1 := K + 27 + K) (c1' := fun _ => K) (Pays.chain (Pays.orElse Cost.pays (by omega) (fun v => by omega)
    (Cost.last (by omega) (fun _ => by omega)))) (by omega)
    (fun _ => by omega)⟩
instance cost_Catch_decode : Cost (R := R) K Catch.decode 6 := ⟨by
  have hK : 64 ≤ K := Rate.le
  unfold Catch.decode; pay⟩
instance cost_decodeCastop : Cost (R := R) K decodeCastop 6 := ⟨by
  have hK : 64 ≤ K := Rate.le
  unfold decodeCastop; pay⟩
instance cost_aggType : Cost (R := R) K aggType 9 := ⟨by
  have hK : 64 ≤ K := Rate.le
  unfold aggType; pay⟩
instance cost_aggField : Cost (R := R) K aggField 8 := ⟨by
  have hK : 64 ≤ K := Rate.le
  unfold aggField; pay⟩
instance cost_aggLen : Cost (R := R) K aggLen 8 := ⟨by
  have hK : 64 ≤ K := Rate.le
  unfold aggLen; pay⟩
instance cost_aggData : Cost (R := R) K aggData 9 := ⟨by
  have hK : 64 ≤ K := Rate.le
  unfold aggData; pay⟩
instance cost_aggElem : Cost (R := R) K aggElem 9 := ⟨by
  have hK : 64 ≤ K := Rate.le
  unfold aggElem; pay⟩
instance cost_refHeap : Cost (R := R) K refHeap 15 := ⟨by
  have hK : 64 ≤ K := Rate.le
  unfold refHeap; pay⟩
instance cost_ctlHeap : Cost (R := R) K ctlHeap 15 := ⟨by
  have hK : 64 ≤ K := Rate.le
  unfold ctlHeap; pay⟩
instance cost_ctlLabel : Cost (R := R) K ctlLabel 9 := ⟨by
  have hK : 64 ≤ K := Rate.le
  unfold ctlLabel; pay⟩
instance cost_ctlFunc : Cost (R := R) K ctlFunc 9 := ⟨by
  have hK : 64 ≤ K := Rate.le
  unfold ctlFunc; pay⟩
instance cost_ctlType : Cost (R := R) K ctlType 9 := ⟨by
  have hK : 64 ≤ K := Rate.le
  unfold ctlType; pay⟩
instance cost_ctlTable : Cost (R := R) K ctlTable 9 := ⟨by
  have hK : 64 ≤ K := Rate.le
  unfold ctlTable; pay⟩
instance cost_tabTable : Cost (R := R) K tabTable 9 := ⟨by
  have hK : 64 ≤ K := Rate.le
  unfold tabTable; pay⟩
instance cost_tabElem : Cost (R := R) K tabElem 9 := ⟨by
  have hK : 64 ≤ K := Rate.le
  unfold tabElem; pay⟩
instance cost_memMem : Cost (R := R) K memMem 9 := ⟨by
  have hK : 64 ≤ K := Rate.le
  unfold memMem; pay⟩
instance cost_memData : Cost (R := R) K memData 9 := ⟨by
  have hK : 64 ≤ K := Rate.le
  unfold memData; pay⟩
instance cost_varLocal : Cost (R := R) K varLocal 9 := ⟨by
  have hK : 64 ≤ K := Rate.le
  unfold varLocal; pay⟩
instance cost_varGlobal : Cost (R := R) K varGlobal 9 := ⟨by
  have hK : 64 ≤ K := Rate.le
  unfold varGlobal; pay⟩
instance cost_vecMemarg : Cost (R := R) K vecMemarg 9 := ⟨by
  have hK : 64 ≤ K := Rate.le
  unfold vecMemarg; pay⟩
instance cost_vecLane : Cost (R := R) K vecLane 7 := ⟨by
  have hK : 64 ≤ K := Rate.le
  unfold vecLane; pay⟩
instance cost_vecBytes : Cost (R := R) K vecBytes 5 := ⟨by
  have hK : 64 ≤ K := Rate.le
  refine Pays.step (by omega) (Pays.bind (Pays.mapErr (pays_readExact' 16 (c := 4) (by omega))) (by omega) fun _ => ?_)
  split
  · exact Pays.pure (by omega)
  · exact Pays.panic⟩

/-! ### Instructions -/
instance free_parseFB (op : UInt32) : Free (R := R) K (parseFB op) 17 := ⟨by
  have hK : 64 ≤ K := Rate.le
  unfold parseFB; pay⟩
instance free_parseFC (op : UInt32) : Free (R := R) K (parseFC op) 17 := ⟨by
  have hK : 64 ≤ K := Rate.le
  unfold parseFC; pay⟩
instance free_parseFD (op : UInt32) : Free (R := R) K (parseFD op) 17 := ⟨by
  have hK : 64 ≤ K := Rate.le
  unfold parseFD; pay⟩
instance free_parseSimple (op : UInt8) : Free (R := R) K (parseSimple op) 17 := ⟨by
  have hK : 64 ≤ K := Rate.le
  unfold parseSimple; pay⟩

end Wadec.Counted
