import Verif.Props.Integers
import Verif.Proof.Sections

/-! C08–C10: floating-point and vector constants, names, lists. -/

namespace Wadec

open LawfulRead Spec

section
variable {R : Type} [LawfulRead R]

/-- C08: `decode_f32` takes four bytes, the little-endian bytes of the bit pattern it returns. -/
theorem c08_f32 : Decodes (decodeF32 : Dec R _ _) (fun bs bits => bs = leBytes 4 bits.toNat) :=
  Decodes.of decodeF32_sound fun _ _ => decodeF32_runs

theorem c08_f64 : Decodes (decodeF64 : Dec R _ _) (fun bs bits => bs = leBytes 8 bits.toNat) :=
  Decodes.of decodeF64_sound fun _ _ => decodeF64_runs

/-- C08: the constants as they appear in an expression: for every bit pattern, `f32.const`,
`f64.const`, `v128.const` and `i8x16.shuffle` yield exactly that bit pattern. -/
theorem c08_const_instr (r : R) (rest : Bytes) :
    (∀ x : UInt32, avail r = 0x43 :: (leBytes 4 x.toNat ++ (0x0B :: rest)) →
      ∃ r', decodeExpr r = (.ok ([.F32Const x], false), r') ∧ avail r' = rest) ∧
    (∀ x : UInt64, avail r = 0x44 :: (leBytes 8 x.toNat ++ (0x0B :: rest)) →
      ∃ r', decodeExpr r = (.ok ([.F64Const x], false), r') ∧ avail r' = rest) ∧
    (∀ x : Bytes16, avail r = 0xFD :: 0x0C :: (x.val ++ (0x0B :: rest)) →
      ∃ r', decodeExpr r = (.ok ([.V128Const x], false), r') ∧ avail r' = rest) ∧
    (∀ x : Bytes16, avail r = 0xFD :: 0x0D :: (x.val ++ (0x0B :: rest)) →
      ∃ r', decodeExpr r = (.ok ([.I8x16Shuffle x], false), r') ∧ avail r' = rest) := by
  have key : ∀ (op : Opcode) (b imms : Bytes) (i : Instr), BOpcode b op → Leaf op imms i →
      containsDataIdx i = false → avail r = b ++ (imms ++ (0x0B :: rest)) →
      ∃ r', decodeExpr r = (.ok ([i], false), r') ∧ avail r' = rest := by
    intro op b imms i h1 h2 h3 ha
    have h4 : BExpr (((b ++ imms) ++ []) ++ [0x0B]) [i] := .mk (.cons (.leaf h1 h2) .nil)
    have h5 := expr_runs (R := R) (v := ([i], false)) ⟨h4, by simp [anyContainsDataIdx, h3]⟩
    obtain ⟨r', h6, h7⟩ := h5 r rest (by rw [ha]; simp)
    refine ⟨r', h6, ?_⟩
    have := adv_avail h7
    rw [ha] at this
    simpa using this.symm
  refine ⟨fun x h => key (.byte 0x43) [0x43] _ _ .byte (.f32Const rfl) rfl h,
    fun x h => key (.byte 0x44) [0x44] _ _ .byte (.f64Const rfl) rfl h,
    fun x h => key (.fd 12) [0xFD, 0x0C] _ _ (.fd ?_) .v128Const rfl h,
    fun x h => key (.fd 13) [0xFD, 0x0D] _ _ (.fd ?_) .i8x16Shuffle rfl h⟩
  · exact .last (n := 0x0C) (by decide) (by decide)
  · exact .last (n := 0x0D) (by decide) (by decide)

/-- The little-endian bytes determine the bit pattern (so no bit is lost). -/
theorem c08_le_injective32 {x y : UInt32} (h : leBytes 4 x.toNat = leBytes 4 y.toNat) : x = y := by
  simp only [leBytes, List.range, List.range.loop, List.map, List.cons.injEq, ← UInt8.toNat_inj,
    UInt8.toNat_ofNat'] at h
  have := x.toNat_lt; have := y.toNat_lt
  apply UInt32.toNat_inj.1
  omega

theorem c08_le_injective64 {x y : UInt64} (h : leBytes 8 x.toNat = leBytes 8 y.toNat) : x = y := by
  simp only [leBytes, List.range, List.range.loop, List.map, List.cons.injEq, ← UInt8.toNat_inj,
    UInt8.toNat_ofNat'] at h
  have := x.toNat_lt; have := y.toNat_lt
  apply UInt64.toNat_inj.1
  omega

/-- C09. -/
theorem c09_name : Decodes (decodeName : Dec R _ _) BName :=
  Decodes.of name_sound fun _ _ => name_runs

/-- C09: bytes that are not UTF-8 are rejected, with the bytes in the error and the length of the
longest prefix that is UTF-8. -/
theorem c09_invalid (r : R) (bs rest v : Bytes) (hb : BByteVec bs v) (hv : ¬ ValidUtf8 v)
    (ha : avail r = bs ++ rest) :
    ∃ e r', decodeName r = (.err (.Utf8 e), r') ∧ e.bytes = v ∧ e.valid_up_to ≤ v.length ∧
      ValidUtf8 (v.take e.valid_up_to) ∧
      ∀ k, e.valid_up_to < k → k ≤ v.length → ¬ ValidUtf8 (v.take k) := by
  obtain ⟨r', h1, _⟩ := byteVec_runs (R := R) hb r rest ha
  have hs := utf8Check_spec 0 v
  cases hc : utf8Check 0 v with
  | none => exact absurd ((utf8Check_none_iff v).1 hc) hv
  | some p =>
    obtain ⟨n, l⟩ := p
    rw [hc] at hs
    obtain ⟨cs, t, h2, h3, h4, h5⟩ := hs
    refine ⟨⟨v, n, l⟩, r', ?_, rfl, ?_, ?_, ?_⟩
    · show Dec.bind _ _ r = _
      simp only [Dec.bind, Dec.mapErr, h1]
      rw [hc]
      rfl
    · simp [h3, h2]
    · refine ⟨cs, ?_⟩
      simp [h3, h2]
    · rintro k hk hk' ⟨ds, hd⟩
      -- std's check runs over the characters `ds` and then over the rest of `v`
      have hk0 : v = ds.flatMap utf8Char ++ v.drop k := by rw [← hd, List.take_append_drop]
      have := utf8Check_append_chars ds 0 (v.drop k)
      rw [← hk0, hc] at this
      have hle : (ds.flatMap utf8Char).length ≤ n := by
        cases hx : utf8Check (0 + (ds.flatMap utf8Char).length) (v.drop k) with
        | none => rw [hx] at this; cases this
        | some q =>
          obtain ⟨n', l'⟩ := q
          have hs' := utf8Check_spec (0 + (ds.flatMap utf8Char).length) (v.drop k)
          rw [hx] at hs' this
          obtain ⟨cs', t', _, h6, _⟩ := hs'
          cases this
          omega
      have hlen := congrArg List.length hd
      rw [List.length_take, Nat.min_eq_left hk'] at hlen
      simp only at hk
      omega

end

/-! ### C10: lists -/

/-- `xs` are the results of running the decoder `f` again and again on the reader, starting from
`r` and ending at `r'`. -/
inductive Elems {R ε α : Type} (f : Dec R ε α) : R → List α → R → Prop
  | nil {r : R} : Elems f r [] r
  | cons {r r1 r2 : R} {x : α} {xs : List α} : f r = (.ok x, r1) → Elems f r1 xs r2 →
      Elems f r (x :: xs) r2

section
variable {R ε α : Type} [Read R] {f : Dec R ε α}

omit [Read R] in
theorem listLoop_unroll (n : Nat) (i : UInt32) (items : List α) (r : R) :
    decodeListLoop (fun (_ : Unit) => (do let x ← f; pure (x, ()) : Dec R ε (α × Unit)))
      (n + 1) i () items r =
    match f r with
    | (.ok x, r1) => decodeListLoop (fun (_ : Unit) => (do let x ← f; pure (x, ()) : Dec R ε _))
        n (i + 1) () (items ++ [x]) r1
    | (.err e, r1) => (.err (.ParseElement i e), r1)
    | (.panic, r1) => (.panic, r1)
    | (.fuel, r1) => (.fuel, r1) := by
  simp only [decodeListLoop, bind, Dec.bind, Dec.mapErr, pure, Dec.ok]
  rcases f r with ⟨_ | _ | _ | _, r1⟩ <;> rfl

omit [Read R] in
theorem listLoop_ok (n : Nat) (i : UInt32) (items ys : List α) (r r' : R) :
    decodeListLoop (fun (_ : Unit) => (do let x ← f; pure (x, ()) : Dec R ε (α × Unit)))
      n i () items r = (.ok (ys, ()), r') ↔
    ∃ xs, ys = items ++ xs ∧ xs.length = n ∧ Elems f r xs r' := by
  induction n generalizing i items r with
  | zero =>
    constructor
    · intro h; cases h; exact ⟨[], by simp, rfl, .nil⟩
    · rintro ⟨xs, h1, h2, h3⟩
      rw [List.length_eq_zero_iff] at h2
      subst h2
      cases h3
      simp [h1, decodeListLoop, pure, Dec.ok]
  | succ n ih =>
    rw [listLoop_unroll]
    constructor
    · intro h
      split at h
      · rename_i x r1 hx
        obtain ⟨xs, h1, h2, h3⟩ := (ih _ _ _).1 h
        exact ⟨x :: xs, by simp [h1], by simp [h2], .cons hx h3⟩
      all_goals cases h
    · rintro ⟨xs, h1, h2, h3⟩
      cases h3 with
      | nil => simp at h2
      | @cons _ r1 _ x xs hx h3 =>
        rw [hx]
        exact (ih _ _ _).2 ⟨xs, by simp [h1], by simpa using h2, h3⟩

omit [Read R] in
theorem listLoop_err (n : Nat) (i : UInt32) (items : List α) (r r' : R) (e : DecodeListError ε) :
    decodeListLoop (fun (_ : Unit) => (do let x ← f; pure (x, ()) : Dec R ε (α × Unit)))
      n i () items r = (.err e, r') ↔
    ∃ xs r1 e', xs.length < n ∧ Elems f r xs r1 ∧ f r1 = (.err e', r') ∧
      e = .ParseElement (i + UInt32.ofNat xs.length) e' := by
  induction n generalizing i items r with
  | zero =>
    constructor
    · intro h; cases h
    · rintro ⟨xs, _, _, h, _⟩; simp at h
  | succ n ih =>
    rw [listLoop_unroll]
    constructor
    · intro h
      split at h
      · rename_i x r1 hx
        obtain ⟨xs, r2, e', h1, h2, h3, h4⟩ := (ih _ _ _).1 h
        refine ⟨x :: xs, r2, e', by simp [h1], .cons hx h2, h3, ?_⟩
        rw [h4, List.length_cons, UInt32.ofNat_add, UInt32.add_comm _ (UInt32.ofNat 1),
          ← UInt32.add_assoc]
        rfl
      · rename_i e' r1 hx
        cases h
        exact ⟨[], r, e', by simp, .nil, hx, by simp⟩
      all_goals cases h
    · rintro ⟨xs, r2, e', h1, h2, h3, h4⟩
      cases h2 with
      | nil =>
        rw [h3]
        simp [h4]
      | @cons _ r1 _ x xs hx h2 =>
        rw [hx]
        refine (ih _ _ _).2 ⟨xs, r2, e', by simpa using h1, h2, h3, ?_⟩
        rw [h4, List.length_cons, UInt32.ofNat_add, UInt32.add_comm _ (UInt32.ofNat 1),
          ← UInt32.add_assoc]
        rfl

theorem decodeList_eq (r : R) : decodeList f r =
    match decodeU32 r with
    | (.ok n, r0) =>
      (match decodeListLoop (fun (_ : Unit) => (do let x ← f; pure (x, ()) : Dec R ε (α × Unit)))
        n.toNat 0 () [] (Read.reserve n.toNat r0) with
      | (.ok (xs, _), r') => (.ok xs, r')
      | (.err e, r') => (.err e, r')
      | (.panic, r') => (.panic, r')
      | (.fuel, r') => (.fuel, r'))
    | (.err e, r0) => (.err (.DecodeLength e), r0)
    | (.panic, r0) => (.panic, r0)
    | (.fuel, r0) => (.fuel, r0) := by
  simp only [decodeList, decodeListS, bind, Dec.bind, Dec.mapErr, pure, Dec.ok, Dec.reserve]
  rcases decodeU32 r with ⟨_ | _ | _ | _, r0⟩ <;> simp only
  rename_i a
  generalize decodeListLoop (fun _ => f.bind fun x => Dec.ok (x, ())) a.toNat 0 () []
    (Read.reserve a.toNat r0) = z
  rcases z with ⟨_ | _ | _ | _, r1⟩ <;> rfl

/-- C10: success, for an arbitrary element decoder: a list is its count followed by that many
elements, in order; nothing more is consumed.  (`Read.reserve` is only the model's note of the
memory the code asks for.) -/
theorem c10_list_ok (r r' : R) (xs : List α) :
    decodeList f r = (.ok xs, r') ↔
      ∃ n r0, decodeU32 r = (.ok n, r0) ∧ n.toNat = xs.length ∧
        Elems f (Read.reserve n.toNat r0) xs r' := by
  rw [decodeList_eq]
  constructor
  · intro h
    split at h
    · rename_i n r0 hn
      split at h
      · rename_i ys u r2 hl
        cases h
        obtain ⟨zs, h1, h2, h3⟩ := (listLoop_ok _ _ _ _ _ _).1 hl
        simp only [List.nil_append] at h1
        subst h1
        exact ⟨n, r0, hn, h2.symm, h3⟩
      all_goals cases h
    all_goals cases h
  · rintro ⟨n, r0, h1, h2, h3⟩
    rw [h1]
    simp only
    rw [(listLoop_ok n.toNat 0 [] xs _ r').2 ⟨xs, by simp, h2.symm, h3⟩]

/-- C10: failure: either the count is bad, or the element at some position `i < n` fails after the
first `i` elements have been decoded, and the error carries that position and that failure. -/
theorem c10_list_err (r r' : R) (e : DecodeListError ε) :
    decodeList f r = (.err e, r') ↔
      (∃ e', decodeU32 r = (.err e', r') ∧ e = .DecodeLength e') ∨
      (∃ n r0 xs r1 e', decodeU32 r = (.ok n, r0) ∧ xs.length < n.toNat ∧
        Elems f (Read.reserve n.toNat r0) xs r1 ∧ f r1 = (.err e', r') ∧
        e = .ParseElement (UInt32.ofNat xs.length) e') := by
  rw [decodeList_eq]
  constructor
  · intro h
    split at h
    · rename_i n r0 hn
      split at h
      · cases h
      · rename_i e1 r2 hl
        cases h
        obtain ⟨xs, r1, e', h1, h2, h3, h4⟩ := (listLoop_err _ _ _ _ _ _).1 hl
        exact .inr ⟨n, r0, xs, r1, e', hn, h1, h2, h3, by simpa using h4⟩
      all_goals cases h
    · rename_i e1 r0 h1
      cases h
      exact .inl ⟨e1, h1, rfl⟩
    all_goals cases h
  · rintro (⟨e', h1, rfl⟩ | ⟨n, r0, xs, r1, e', h1, h2, h3, h4, rfl⟩)
    · rw [h1]
    · rw [h1]
      simp only
      rw [(listLoop_err n.toNat 0 [] _ r' _).2 ⟨xs, r1, e', h2, h3, h4, rfl⟩]
      simp

end

/-- C10, in terms of the grammar: if the element decoder decodes `B`, the list decoder decodes
`list(B)`. -/
theorem c10_list_grammar {R ε α : Type} [LawfulRead R] {f : Dec R ε α} {B : Bytes → α → Prop}
    (hs : Sound f B) (hr : ∀ b x, B b x → Runs f b x) : Decodes (decodeList f) (BList B) :=
  Decodes.of (list_sound hs) fun _ _ => list_runs hr

/-- C10 for byte vectors (`decode_byte_vector`). -/
theorem c10_byteVec {R : Type} [LawfulRead R] : Decodes (decodeByteVector : Dec R _ _) BByteVec :=
  Decodes.of byteVec_sound fun _ _ => byteVec_runs

/-! ### Concrete cases -/

-- C08: a NaN with payload
example : (decodeExpr (Src.ofBytes [0x43, 0x01, 0x02, 0xA0, 0x7F, 0x0B])).1 =
    .ok ([.F32Const 0x7FA00201], false) := by rfl
-- C09: U+20AC (three bytes) is a name; a surrogate is not
example : BName [0x04, 0x61, 0xE2, 0x82, 0xAC] ⟨[0x61, 0xE2, 0x82, 0xAC]⟩ := by
  refine ⟨.mk (b := [4]) (.last (n := 4) (by decide) (by decide)) ?_, ['a', '€'], by decide⟩
  exact .cons (b := [_]) rfl (.cons (b := [_]) rfl (.cons (b := [_]) rfl (.cons (b := [_]) (bs := []) rfl .nil)))
example : ¬ ValidUtf8 [0x61, 0xED, 0xA0, 0x80] := by
  rw [← utf8Check_none_iff]; decide
example : (decodeName (Src.ofBytes [0x04, 0x61, 0xED, 0xA0, 0x80])).1 =
    .err (.Utf8 ⟨[0x61, 0xED, 0xA0, 0x80], 1, some 1⟩) := by rfl
-- C10: the second element of three fails
example : (decodeList ValType.decode (Src.ofBytes [0x03, 0x7F, 0x00, 0x7E])).1 =
    .err (.ParseElement 1 (.DecodeRefType (.InvalidMarkerByte (.InvalidMarkerByte ⟨0x00⟩)))) := by rfl
example : (decodeList ValType.decode (Src.ofBytes [0x02, 0x7F, 0x63, 0x05, 0x7E])).1 =
    .ok [.Num .Int32, .Ref ⟨true, .TypeIdx 5⟩] := by rfl

end Wadec
