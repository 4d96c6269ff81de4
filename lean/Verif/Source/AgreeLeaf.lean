import Verif.Source.Leaf
import Verif.Spec.AnyReader

/-! The translated leaf functions (Source/Leaf.lean) are the functions of the model. -/

set_option linter.unusedSectionVars false

namespace Wadec.Source

section
variable {R ε ε' ε'' α β γ : Type}

/-! ### Calculus of decoders -/

theorem bind_eq (d : Dec R ε α) (k : α → Dec R ε β) : (d >>= k) = Dec.bind d k := rfl
theorem pure_eq (a : α) : (pure a : Dec R ε α) = Dec.ok a := rfl

theorem dec_pure_bind (a : α) (k : α → Dec R ε β) : (pure a >>= k) = k a := rfl
theorem dec_bind_pure (d : Dec R ε α) : (d >>= pure) = d := by
  funext r
  simp only [bind_eq, Dec.bind]
  rcases d r with ⟨res, r'⟩
  cases res <;> rfl
theorem dec_bind_assoc (d : Dec R ε α) (k : α → Dec R ε β) (l : β → Dec R ε γ) :
    ((d >>= k) >>= l) = (d >>= fun a => k a >>= l) := by
  funext r
  simp only [bind_eq, Dec.bind]
  rcases d r with ⟨res, r'⟩
  cases res <;> rfl
theorem err_bind (e : ε) (k : α → Dec R ε β) : (Dec.err e >>= k) = Dec.err e := rfl
theorem panic_bind (k : α → Dec R ε β) : (Dec.panic >>= k) = Dec.panic := rfl
theorem fuel_bind (k : α → Dec R ε β) : (Dec.outOfFuel >>= k) = Dec.outOfFuel := rfl
theorem ite_bind (c : Prop) [Decidable c] (d e : Dec R ε α) (k : α → Dec R ε β) :
    ((if c then d else e) >>= k) = if c then d >>= k else e >>= k := by split <;> rfl

theorem bind_congr' {d : Dec R ε α} {k k' : α → Dec R ε β} (h : ∀ a, k a = k' a) : (d >>= k) = (d >>= k') := by
  rw [funext h]

theorem mapErr_pure (f : ε → ε') (a : α) : Dec.mapErr f (pure a : Dec R ε α) = pure a := rfl
theorem mapErr_err (f : ε → ε') (e : ε) : Dec.mapErr f (Dec.err e : Dec R ε α) = Dec.err (f e) := rfl
theorem mapErr_panic (f : ε → ε') : Dec.mapErr f (Dec.panic : Dec R ε α) = Dec.panic := rfl
theorem mapErr_fuel (f : ε → ε') : Dec.mapErr f (Dec.outOfFuel : Dec R ε α) = Dec.outOfFuel := rfl
theorem mapErr_bind (f : ε → ε') (d : Dec R ε α) (k : α → Dec R ε β) :
    Dec.mapErr f (d >>= k) = (Dec.mapErr f d >>= fun a => Dec.mapErr f (k a)) := by
  funext r
  simp only [bind_eq, Dec.bind, Dec.mapErr]
  rcases d r with ⟨res, r'⟩
  cases res <;> rfl
theorem mapErr_ite (f : ε → ε') (c : Prop) [Decidable c] (d e : Dec R ε α) :
    Dec.mapErr f (if c then d else e) = if c then Dec.mapErr f d else Dec.mapErr f e := by split <;> rfl
theorem mapErr_mapErr (f : ε → ε') (g : ε' → ε'') (d : Dec R ε α) :
    Dec.mapErr g (Dec.mapErr f d) = Dec.mapErr (fun e => g (f e)) d := by
  funext r
  simp only [Dec.mapErr]
  rcases d r with ⟨res, r'⟩
  cases res <;> rfl
theorem mapErr_id (d : Dec R ε α) : Dec.mapErr id d = d := by
  funext r
  simp only [Dec.mapErr]
  rcases d r with ⟨res, r'⟩
  cases res <;> rfl
theorem mapErr_id' (d : Dec R ε α) : Dec.mapErr (fun e => e) d = d := mapErr_id d
theorem q_eq [From ε ε'] (d : Dec R ε α) : q d = Dec.mapErr (fun e => (From.from_ e : ε')) d := rfl
theorem withChain_mapErr (b : UInt8) (f : ε → ε') (d : Dec (Chain R) ε α) :
    Dec.withChain b (Dec.mapErr f d) = Dec.mapErr f (Dec.withChain b d) := by
  funext r
  simp only [Dec.withChain, Dec.mapErr]
  rcases d ⟨[b], r⟩ with ⟨res, r'⟩
  cases res <;> rfl
theorem withChain_bind_pure (b : UInt8) (d : Dec (Chain R) ε α) (g : α → β) :
    Dec.withChain b (d >>= fun a => pure (g a)) = (Dec.withChain b d >>= fun a => pure (g a)) := by
  funext r
  simp only [Dec.withChain, bind_eq, Dec.bind]
  rcases d ⟨[b], r⟩ with ⟨res, r'⟩
  cases res <;> rfl

instance : LawfulMonad (Dec R ε) := LawfulMonad.mk'
  (id_map := fun d => dec_bind_pure d)
  (pure_bind := fun a k => dec_pure_bind a k)
  (bind_assoc := fun d k l => dec_bind_assoc d k l)

/-! ### Prelude -/

theorem unwrap_ok_pure (a : α) : unwrap_ok (pure a : Dec R ε α) = (pure a : Dec R ε' α) := rfl
theorem unwrap_some_some (a : α) : unwrap_some (some a) = (pure a : Dec R ε α) := rfl
theorem unwrap_some_ite (c : Prop) [Decidable c] (a : α) :
    unwrap_some (if c then some a else none) = if c then (pure a : Dec R ε α) else Dec.panic := by
  split <;> rfl

/-- A loop over a list with an early return. -/
theorem forIn_agree {ι γ' τ : Type} {F : ι → Option γ × τ → Dec R ε (ForInStep (Option γ × τ))}
    {G : Option γ × τ → Dec R ε γ'} (L : List ι) (M : List ι → τ → Dec R ε γ')
    (hnil : ∀ t, G (none, t) = M [] t)
    (hcons : ∀ i is t (K : Option γ × τ → Dec R ε γ'), (i :: is) <:+ L → (∀ t, K (none, t) = M is t) →
      (F i (none, t) >>= fun st => match st with
        | .done s' => G s'
        | .yield s' => K s') = M (i :: is) t) :
    ∀ is, is <:+ L → ∀ t, (forIn is (none, t) F >>= G) = M is t
  | [], _, t => by rw [List.forIn_nil, dec_pure_bind, hnil]
  | i :: is, h, t => by
    rw [← hcons i is t (fun s => forIn is s F >>= G) h (fun t => forIn_agree L M hnil hcons is
      (List.IsSuffix.trans (List.suffix_cons i is) h) t), List.forIn_cons, dec_bind_assoc]
    apply bind_congr'
    rintro (s | s) <;> rfl

end

/-! ### Readers that respect the buffer -/

/-- The obligation of `std::io::Read::read`: never more bytes than the buffer holds. -/
class Fits (R : Type) [Read R] : Prop where
  fits : ∀ {n : Nat} {r : R} {bs r'}, 0 < n → Read.read n r = (.ok bs, r') → bs.length ≤ n

instance {R : Type} [LawfulRead R] : Fits R where
  fits := by
    intro n r bs r' hn h
    cases bs with
    | nil => simp
    | cons b bs => exact (LawfulRead.read_data hn h).1

instance {σ : Type} {I : Impl σ} {sizes : List Ev → Nat} {budget : Nat} : Fits (Rec I sizes budget) where
  fits := by
    intro n r bs r' _ h
    simp only [Read.read] at h
    have h' : I.read n r.state = (.ok bs, (I.read n r.state).2) := by
      rw [← (Prod.mk.inj h).1]
    exact I.fits h'

variable {R : Type} [Read R]

instance [Fits R] : Fits (Take R) where
  fits := by
    intro n t bs t' hn h
    simp only [Read.read, Take.read] at h
    split at h
    · cases h; simp
    · rename_i hl
      split at h <;> rename_i hi <;> cases h
      have := Fits.fits (by omega) hi
      omega

instance [Fits R] : Fits (Chain R) where
  fits := by
    intro n c bs c' hn h
    simp only [Read.read, Chain.read] at h
    split at h
    · rcases h' : Read.read n c.inner with ⟨res, i⟩
      rw [h'] at h
      cases h
      exact Fits.fits hn h'
    · cases h
      simp; omega

theorem readExactLoop_length [Fits R] : ∀ (f n : Nat) (acc : List UInt8) (r r' : R) (bs : List UInt8),
    readExactLoop f n acc r = (.ok bs, r') → bs.length = acc.length + n
  | 0, _, _, _, _, _, h => by cases h
  | f + 1, n, acc, r, r', bs, h => by
    simp only [readExactLoop] at h
    split at h
    · cases h; omega
    · rename_i hn
      split at h
      · cases h
      · rename_i b bs' r'' hr
        have := readExactLoop_length f _ _ _ _ _ h
        have hf := Fits.fits (by omega) hr
        simp only [List.length_append] at this
        omega
      · exact readExactLoop_length f _ _ _ _ _ h
      · cases h

theorem readExact_length [Fits R] {n : Nat} {r r' : R} {bs : List UInt8} (h : readExact n r = (.ok bs, r')) :
    bs.length = n := by
  have := readExactLoop_length _ _ _ _ _ _ h
  simpa using this

theorem readExact_congr [Fits R] {α ε : Type} {n : Nat} {f : IoError → ε} {k k' : List UInt8 → Dec R ε α}
    (h : ∀ bs, bs.length = n → k bs = k' bs) :
    (Dec.mapErr f (readExact n) >>= k) = (Dec.mapErr f (readExact n) >>= k') := by
  funext r
  simp only [bind_eq, Dec.bind, Dec.mapErr]
  rcases hr : readExact n r with ⟨res, r'⟩
  cases res with
  | ok bs => simp only; rw [h bs (readExact_length hr)]
  | _ => rfl

/-! ### Bytes: src/decode/helpers.rs -/

variable [Fits R]

theorem read_byte_eq : (read_byte : Dec R _ _) = readByte := by
  unfold read_byte readByte
  simp only [q_eq]
  rw [ ← mapErr_id (readExact 1)]
  refine readExact_congr fun bs h => ?_
  match bs, h with
  | [b], _ => rfl

/-! ### src/decode/integer.rs -/

theorem add_u8 {ε : Type} (a b : UInt8) : add a b =
    if 255 < a.toNat + b.toNat then (Dec.panic : Dec R ε UInt8) else pure (a + b) := by
  simp only [add, CheckedAdd.add_, unwrap_some_ite]
  split <;> split <;> first | rfl | omega

theorem from_u32 (b : UInt8) : (From.from_ b : UInt32).toBitVec = b.toBitVec.setWidth 32 := rfl
theorem from_u64 (b : UInt8) : (From.from_ b : UInt64).toBitVec = b.toBitVec.setWidth 64 := rfl
theorem from_i64 (b : UInt8) : (From.from_ b : Int64).toBitVec = b.toBitVec.setWidth 64 := rfl

theorem ite_lt_ge {α : Type} (a n : Nat) (x y z : α) (h : a < n → x = z) :
    (if a < n then x else y) = (if n ≤ a then y else z) := by
  by_cases ha : a < n
  · rw [if_pos ha, if_neg (by omega), h ha]
  · rw [if_neg ha, if_pos (by omega)]

theorem ite_congr' {α : Type} {c d : Prop} [Decidable c] [Decidable d] {x x' y y' : α}
    (hc : c ↔ d) (h : c → x = x') (h' : ¬ c → y = y') : (if c then x else y) = (if d then x' else y') := by
  by_cases hd : c
  · rw [if_pos hd, if_pos (hc.1 hd), h hd]
  · rw [if_neg hd, if_neg (fun x => hd (hc.2 x)), h' hd]

theorem toNat_add7 {sh : UInt8} (h : ¬ 255 < sh.toNat + UInt8.toNat 7) : (sh + 7).toNat = sh.toNat + 7 := by
  have h7 : UInt8.toNat 7 = 7 := rfl
  rw [UInt8.toNat_add, h7]
  omega

theorem decode_u32_eq : (decode_u32 : Dec R _ _) = decodeU32 := by
  unfold decode_u32 decodeU32
  rw [show rangeIncl 1 5 = [1, 2, 3, 4, 5] from by decide]
  dsimp only
  refine Eq.trans (forIn_agree [1, 2, 3, 4, 5]
    (fun is (t : UInt32 × UInt8) => decodeU32Loop is.length (6 - is.length) t.1.toBitVec t.2.toNat) ?_ ?_ _
    (List.suffix_refl _) (0, 0)) (by simp)
  · rintro ⟨res, sh⟩
    rfl
  · rintro i is ⟨res, sh⟩ K hs ih
    have hi : (i = 5) = (6 - (is.length + 1) = 5) := by
      simp [List.suffix_cons_iff] at hs
      rcases hs with ⟨rfl, rfl⟩ | ⟨rfl, rfl⟩ | ⟨rfl, rfl⟩ | ⟨rfl, rfl⟩ | ⟨rfl, rfl⟩ <;> simp
    have hl : is.length ≤ 4 := by
      have := hs.length_le
      simp at this; omega
    rw [List.length_cons, decodeU32Loop, q_eq, read_byte_eq, dec_bind_assoc]
    refine bind_congr' fun b => ?_
    simp only [shl, CheckedShl.shl_, unwrap_some_ite, dec_pure_bind, ite_bind, panic_bind, err_bind,
      add_u8, hi, ih, from_u32]
    refine ite_lt_ge _ _ _ _ _ fun _ => ite_congr' Iff.rfl (fun _ => rfl) fun _ =>
      ite_congr' Iff.rfl (fun _ => rfl) fun h => ?_
    rw [toNat_add7 h, show 6 - is.length = 6 - (is.length + 1) + 1 by omega, UInt32.toBitVec_or]

theorem decode_u64_eq : (decode_u64 : Dec R _ _) = decodeU64 := by
  unfold decode_u64 decodeU64
  rw [show rangeIncl 1 10 = [1, 2, 3, 4, 5, 6, 7, 8, 9, 10] from by decide]
  dsimp only
  refine Eq.trans (forIn_agree [1, 2, 3, 4, 5, 6, 7, 8, 9, 10]
    (fun is (t : UInt64 × UInt8) => decodeU64Loop is.length (11 - is.length) t.1.toBitVec t.2.toNat) ?_ ?_ _
    (List.suffix_refl _) (0, 0)) (by simp)
  · rintro ⟨res, sh⟩
    rfl
  · rintro i is ⟨res, sh⟩ K hs ih
    have hi : (i = 10) = (11 - (is.length + 1) = 10) := by
      simp [List.suffix_cons_iff] at hs
      rcases hs with ⟨rfl, rfl⟩ | ⟨rfl, rfl⟩ | ⟨rfl, rfl⟩ | ⟨rfl, rfl⟩ | ⟨rfl, rfl⟩ | ⟨rfl, rfl⟩ |
        ⟨rfl, rfl⟩ | ⟨rfl, rfl⟩ | ⟨rfl, rfl⟩ | ⟨rfl, rfl⟩ <;> simp
    have hl : is.length ≤ 9 := by
      have := hs.length_le
      simp at this; omega
    rw [List.length_cons, decodeU64Loop, q_eq, read_byte_eq, dec_bind_assoc]
    refine bind_congr' fun b => ?_
    simp only [shl, CheckedShl.shl_, unwrap_some_ite, dec_pure_bind, ite_bind, panic_bind, err_bind,
      add_u8, hi, ih, from_u64]
    refine ite_lt_ge _ _ _ _ _ fun _ => ite_congr' Iff.rfl (fun _ => rfl) fun _ =>
      ite_congr' Iff.rfl (fun _ => rfl) fun h => ?_
    rw [toNat_add7 h, show 11 - is.length = 11 - (is.length + 1) + 1 by omega, UInt64.toBitVec_or]

theorem le_i64 (x : Int64) : (Int32.toInt64 (-2147483648) ≤ x ∧ x ≤ Int32.toInt64 2147483647) =
    (-2147483648 ≤ x.toInt ∧ x.toInt ≤ 2147483647) := by
  rw [Int64.le_iff_toInt_le, Int64.le_iff_toInt_le]
  rfl

theorem i32_try {ε : Type} (x : Int64) : (unwrap_ok (tryFrom (β := Int32) x) : Dec R ε Int32) =
    if -2147483648 ≤ x.toInt ∧ x.toInt ≤ 2147483647 then pure (Int32.ofInt x.toInt) else Dec.panic := by
  simp only [tryFrom, TryFrom.tryFrom_]
  by_cases h : -2147483648 ≤ x.toInt ∧ x.toInt ≤ 2147483647
  · simp only [if_pos h]; rfl
  · simp only [if_neg h]; rfl

theorem decode_i32_eq : (decode_i32 : Dec R _ _) = decodeI32 := by
  unfold decode_i32 decodeI32
  rw [show rangeIncl 1 5 = [1, 2, 3, 4, 5] from by decide]
  dsimp only
  refine Eq.trans (forIn_agree [1, 2, 3, 4, 5]
    (fun is (t : Int64 × UInt8) => decodeI32Loop is.length t.1.toBitVec t.2.toNat) ?_ ?_ _
    (List.suffix_refl _) (0, 0)) (by simp)
  · rintro ⟨res, sh⟩
    rfl
  · rintro i is ⟨res, sh⟩ K hs ih
    rw [List.length_cons, decodeI32Loop, q_eq, read_byte_eq, dec_bind_assoc]
    refine bind_congr' fun b => ?_
    simp only [shl, CheckedShl.shl_, unwrap_some_ite, dec_pure_bind, ite_bind, panic_bind, err_bind,
      add_u8, ih, from_i64, i32_try, le_i64]
    refine ite_lt_ge _ _ _ _ _ fun _ => ite_congr' Iff.rfl (fun _ => rfl) fun h =>
      ite_congr' Iff.rfl (fun _ => ?_) fun _ => ?_
    · rw [toNat_add7 h]
      by_cases h4 : b &&& 64 = 0
      · simp only [h4, ne_eq, not_true_eq_false, if_false, false_and]
        rfl
      · simp only [h4, ne_eq, not_false_eq_true, if_true, true_and]
        exact ite_lt_ge _ _ _ _ _ fun _ => rfl
    · rw [toNat_add7 h, Int64.toBitVec_or]; rfl

theorem ge_u8 (a b : UInt8) : a ≥ b ↔ b.toNat ≤ a.toNat := UInt8.le_iff_toNat_le

theorem decode_i64_eq : (decode_i64 : Dec R _ _) = decodeI64 := by
  unfold decode_i64 decodeI64
  rw [show rangeIncl 1 10 = [1, 2, 3, 4, 5, 6, 7, 8, 9, 10] from by decide]
  dsimp only
  refine Eq.trans (forIn_agree [1, 2, 3, 4, 5, 6, 7, 8, 9, 10]
    (fun is (t : Int64 × UInt8) => decodeI64Loop is.length t.1.toBitVec t.2.toNat) ?_ ?_ _
    (List.suffix_refl _) (0, 0)) (by simp)
  · rintro ⟨res, sh⟩
    rfl
  · rintro i is ⟨res, sh⟩ K hs ih
    rw [List.length_cons, decodeI64Loop, q_eq, read_byte_eq, dec_bind_assoc]
    refine bind_congr' fun b => ?_
    simp only [shl, CheckedShl.shl_, unwrap_some_ite, dec_pure_bind, ite_bind, panic_bind, err_bind,
      add_u8, ih, from_i64, decide_eq_true_eq]
    simp only [ge_u8]
    refine ite_lt_ge _ _ _ _ _ fun _ => ite_congr' Iff.rfl (fun _ => rfl) fun h =>
      ite_congr' Iff.rfl (fun _ => ?_) fun _ => ?_
    · rw [toNat_add7 h]
      refine ite_congr' Iff.rfl (fun _ => rfl) fun h6 => ite_congr' Iff.rfl (fun _ => ?_) fun _ => rfl
      rw [if_pos (show sh.toNat + 7 < 64 from Nat.lt_of_not_le h6)]
      rfl
    · rw [toNat_add7 h, Int64.toBitVec_or]; rfl

theorem decode_s33_eq : (decode_s33 : Dec R _ _) = decodeS33 := by
  unfold decode_s33 decodeS33
  rw [show rangeIncl 1 5 = [1, 2, 3, 4, 5] from by decide]
  dsimp only
  refine Eq.trans (forIn_agree [1, 2, 3, 4, 5]
    (fun is (t : Int64 × UInt8) => decodeS33Loop is.length t.1.toBitVec t.2.toNat) ?_ ?_ _
    (List.suffix_refl _) (0, 0)) (by simp)
  · rintro ⟨res, sh⟩
    rfl
  · rintro i is ⟨res, sh⟩ K hs ih
    rw [List.length_cons, decodeS33Loop, q_eq, read_byte_eq, dec_bind_assoc]
    refine bind_congr' fun b => ?_
    simp only [shl, CheckedShl.shl_, unwrap_some_ite, dec_pure_bind, ite_bind, panic_bind, err_bind,
      add_u8, ih, from_i64, decide_eq_true_eq]
    simp only [ge_u8]
    refine ite_lt_ge _ _ _ _ _ fun _ => ite_congr' Iff.rfl (fun _ => rfl) fun h =>
      ite_congr' Iff.rfl (fun _ => ?_) fun _ => ?_
    · rw [toNat_add7 h, show UInt8.toNat 33 = 33 from rfl]
      by_cases h3 : 33 ≤ sh.toNat + 7 <;> by_cases h4 : b &&& 64 = 0 <;>
        simp only [h3, h4, ne_eq, not_true_eq_false, not_false_eq_true, if_false, if_true, false_and, true_and]
      · rfl
      · refine ite_congr' Iff.rfl (fun _ => rfl) fun _ => ?_
        exact ite_lt_ge _ _ _ _ _ fun _ => rfl
      · rfl
      · exact ite_lt_ge _ _ _ _ _ fun _ => rfl
    · rw [toNat_add7 h, Int64.toBitVec_or]; rfl

/-! ### src/decode/indices.rs, floats -/

theorem typeIdx_eq : (Source.TypeIdx.decode : Dec R _ _) = Wadec.TypeIdx.decode := by
  unfold Source.TypeIdx.decode Wadec.TypeIdx.decode; rw [decode_u32_eq]; rfl
theorem funcIdx_eq : (Source.FuncIdx.decode : Dec R _ _) = Wadec.FuncIdx.decode := by
  unfold Source.FuncIdx.decode Wadec.FuncIdx.decode; rw [decode_u32_eq]; rfl
theorem tableIdx_eq : (Source.TableIdx.decode : Dec R _ _) = Wadec.TableIdx.decode := by
  unfold Source.TableIdx.decode Wadec.TableIdx.decode; rw [decode_u32_eq]; rfl
theorem memIdx_eq : (Source.MemIdx.decode : Dec R _ _) = Wadec.MemIdx.decode := by
  unfold Source.MemIdx.decode Wadec.MemIdx.decode; rw [decode_u32_eq]; rfl
theorem globalIdx_eq : (Source.GlobalIdx.decode : Dec R _ _) = Wadec.GlobalIdx.decode := by
  unfold Source.GlobalIdx.decode Wadec.GlobalIdx.decode; rw [decode_u32_eq]; rfl
theorem elemIdx_eq : (Source.ElemIdx.decode : Dec R _ _) = Wadec.ElemIdx.decode := by
  unfold Source.ElemIdx.decode Wadec.ElemIdx.decode; rw [decode_u32_eq]; rfl
theorem dataIdx_eq : (Source.DataIdx.decode : Dec R _ _) = Wadec.DataIdx.decode := by
  unfold Source.DataIdx.decode Wadec.DataIdx.decode; rw [decode_u32_eq]; rfl
theorem localIdx_eq : (Source.LocalIdx.decode : Dec R _ _) = Wadec.LocalIdx.decode := by
  unfold Source.LocalIdx.decode Wadec.LocalIdx.decode; rw [decode_u32_eq]; rfl
theorem labelIdx_eq : (Source.LabelIdx.decode : Dec R _ _) = Wadec.LabelIdx.decode := by
  unfold Source.LabelIdx.decode Wadec.LabelIdx.decode; rw [decode_u32_eq]; rfl
theorem tagIdx_eq : (Source.TagIdx.decode : Dec R _ _) = Wadec.TagIdx.decode := by
  unfold Source.TagIdx.decode Wadec.TagIdx.decode; rw [decode_u32_eq]; rfl

theorem decode_f32_eq : (decode_f32 : Dec R _ _) = decodeF32 := by
  unfold decode_f32 decodeF32; dsimp only; rw [List.length_replicate]; rfl
theorem decode_f64_eq : (decode_f64 : Dec R _ _) = decodeF64 := by
  unfold decode_f64 decodeF64; dsimp only; rw [List.length_replicate]; rfl

/-! ### Byte vectors and names -/

theorem usize_try {ε : Type} (x : UInt32) : (unwrap_ok (tryFrom (β := Nat) x) : Dec R ε Nat) = pure x.toNat := rfl

theorem decode_byte_vector_eq : (decode_byte_vector : Dec R _ _) = decodeByteVector := by
  unfold decode_byte_vector decodeByteVector
  rw [decode_u32_eq]
  simp only [usize_try, vec_zeroed, dec_pure_bind, dec_bind_assoc, List.length_replicate, q_eq]
  rfl

theorem decode_name_eq : (decode_name : Dec R _ _) = decodeName := by
  unfold decode_name decodeName
  rw [decode_byte_vector_eq]
  simp only [q_eq]
  refine bind_congr' fun bs => ?_
  simp only [tryFrom, TryFrom.tryFrom_]
  cases utf8Check 0 bs <;> rfl

/-! ### Lists -/

theorem decode_list_loop {σ T E : Type} (call : σ → Dec R E (T × σ)) :
    ∀ (n i : Nat) (st : σ) (items : List T) (F : UInt32 → FnMut R σ E T × List T →
      Dec R (DecodeListError E) (ForInStep (FnMut R σ E T × List T))),
    (∀ i st items, F i (⟨st, call⟩, items) =
      Dec.mapErr (fun err => DecodeListError.ParseElement i err) (call st) >>= fun x =>
        pure (.yield (⟨x.2, call⟩, items ++ [x.1]))) →
    (forIn ((List.range' i n).map UInt32.ofNat) ((⟨st, call⟩ : FnMut R σ E T), items) F) =
      (decodeListLoop call n (UInt32.ofNat i) st items >>= fun x => pure ((⟨x.2, call⟩ : FnMut R σ E T), x.1))
  | 0, i, st, items, F, hF => rfl
  | n + 1, i, st, items, F, hF => by
    rw [List.range'_succ, List.map_cons, List.forIn_cons, hF, decodeListLoop, dec_bind_assoc, dec_bind_assoc]
    refine bind_congr' fun x => ?_
    rw [dec_pure_bind]
    simp only
    rw [decode_list_loop call n (i + 1) _ _ F hF]
    simp

theorem range_zero (len : UInt32) : range 0 len = (List.range' 0 len.toNat).map UInt32.ofNat := by
  simp [range, List.range_eq_range']

theorem decode_list_eqS {σ T E : Type} (f : FnMut R σ E T) :
    (decode_list f : Dec R _ _) = decodeListS f.call f.state := by
  unfold decode_list decodeListS
  rw [decode_u32_eq]
  refine bind_congr' fun len => ?_
  simp only [usize_try, with_capacity, dec_pure_bind, dec_bind_assoc]
  refine bind_congr' fun _ => ?_
  rw [range_zero, decode_list_loop f.call, dec_bind_assoc]
  · simp only [dec_pure_bind]
    exact dec_bind_pure _
  · intro i st items
    simp only [FnMut.run, q_eq, mapErr_bind, mapErr_mapErr, dec_bind_assoc]
    rfl

theorem decode_list_eq {T E : Type} (d : Dec R E T) :
    (decode_list (FnMut.of d) >>= fun x => pure x.1 : Dec R _ _) = decodeList d := by
  rw [decode_list_eqS]
  rfl

/-- At the call sites: `decode_list(..)?` with a stateless element decoder. -/
theorem decode_list_q {T E E' α : Type} (g : DecodeListError E → E') (d : Dec R E T)
    (k : List T × Unit → Dec R E' α) :
    (Dec.mapErr g (decode_list (FnMut.of d)) >>= k) = (Dec.mapErr g (decodeList d) >>= fun x => k (x, ())) := by
  rw [← decode_list_eq, mapErr_bind, dec_bind_assoc]
  rfl

end Wadec.Source
