import Verif.Proof.CalmAll

/-! The last byte delivered when a block type is rejected with an error that may stand for a swallowed
one (C80): it is not zero. -/

namespace Wadec

variable {R : Type} [Read R] {N : R → Prop}

/-- `N` ("the last byte delivered is not zero") survives a byte other than zero and a call of `read`
that delivers nothing. -/
structure Glow (N : R → Prop) : Prop where
  byte : ∀ {r b r'}, N r → Read.read 1 r = (.ok [b], r') → b ≠ 0 → N r'
  none : ∀ {n r r'}, N r → 0 < n → Read.read n r = (.ok [], r') → N r'
  fail : ∀ {n r e r'}, N r → 0 < n → Read.read n r = (.error e, r') → N r'

/-- Moreover a byte other than zero establishes it. -/
structure Lamp (N : R → Prop) : Prop extends Glow N where
  start : ∀ {r b r'}, Read.read 1 r = (.ok [b], r') → b ≠ 0 → N r'

theorem Glow.chain (h : Glow N) : Glow (fun c : Chain R => N c.inner) where
  byte := by
    rintro ⟨l, i⟩ b r' hN hr hb
    cases l with
    | nil =>
      simp only [Read.read, Chain.read] at hr
      generalize hi : Read.read 1 i = o at hr
      obtain ⟨o1, i'⟩ := o
      cases hr
      exact h.byte hN hi hb
    | cons x l => cases hr; exact hN
  none := by
    rintro n ⟨l, i⟩ r' hN hn hr
    cases l with
    | nil =>
      simp only [Read.read, Chain.read] at hr
      generalize hi : Read.read n i = o at hr
      obtain ⟨o1, i'⟩ := o
      cases hr
      exact h.none hN hn hi
    | cons x l =>
      simp only [Read.read, Chain.read, Prod.mk.injEq] at hr
      rw [← hr.2]
      exact hN
  fail := by
    rintro n ⟨l, i⟩ e r' hN hn hr
    cases l with
    | nil =>
      simp only [Read.read, Chain.read] at hr
      generalize hi : Read.read n i = o at hr
      obtain ⟨o1, i'⟩ := o
      cases hr
      exact h.fail hN hn hi
    | cons x l => cases hr

theorem Lamp.take (h : Lamp N) : Lamp (fun t : Take R => N t.inner) where
  byte := by
    rintro ⟨l, i⟩ b r' hN hr hb
    simp only [Read.read, Take.read] at hr
    split at hr
    · cases hr
    · rename_i hl
      have : min 1 l = 1 := by omega
      simp only [this] at hr
      split at hr <;> rename_i hi <;> cases hr
      exact h.byte hN hi hb
  start := by
    rintro ⟨l, i⟩ b r' hr hb
    simp only [Read.read, Take.read] at hr
    split at hr
    · cases hr
    · rename_i hl
      have : min 1 l = 1 := by omega
      simp only [this] at hr
      split at hr <;> rename_i hi <;> cases hr
      exact h.start hi hb
  none := by
    rintro n ⟨l, i⟩ r' hN hn hr
    simp only [Read.read, Take.read] at hr
    split at hr
    · cases hr; exact hN
    · rename_i hl
      split at hr <;> rename_i hi <;> cases hr
      exact h.none (n := min n l) hN (by omega) hi
  fail := by
    rintro n ⟨l, i⟩ e r' hN hn hr
    simp only [Read.read, Take.read] at hr
    split at hr
    · cases hr
    · rename_i hl
      split at hr <;> rename_i hi <;> cases hr
      exact h.fail (n := min n l) hN (by omega) hi

/-! ### One byte -/

theorem exactOne_err (h : Glow N) : ∀ f r e r', N r → readExactLoop f 1 [] r = (.err e, r') → N r'
  | 0, _, _, _, _, hd => by cases hd
  | f + 1, r, e, r', hN, hd => by
    simp only [readExactLoop] at hd
    rw [if_neg (by decide)] at hd
    generalize hr : Read.read 1 r = o at hd
    obtain ⟨o, r1⟩ := o
    match o, hr, hd with
    | .ok [], hr, hd => cases hd; exact h.none hN (by decide) hr
    | .ok (b :: d), hr, hd =>
      have h0 : 1 - (b :: d).length = 0 := by simp only [List.length_cons]; omega
      cases f with
      | zero => cases hd
      | succ f =>
        simp only [readExactLoop] at hd
        rw [if_pos h0] at hd
        cases hd
    | .error .interrupted, hr, hd => exact exactOne_err h f r1 e r' (h.fail hN (by decide) hr) hd
    | .error .unexpectedEof, hr, hd => cases hd; exact h.fail hN (by decide) hr
    | .error (.other x), hr, hd => cases hd; exact h.fail hN (by decide) hr

/-- The call of `read` that delivered the byte. -/
theorem exactOne_ok : ∀ f r b r', readExactLoop f 1 [] r = (.ok [b], r') →
    ∃ r0, Read.read 1 r0 = (.ok [b], r') ∧ ∀ N : R → Prop, Glow N → N r → N r0
  | 0, _, _, _, hd => by cases hd
  | f + 1, r, b, r', hd => by
    simp only [readExactLoop] at hd
    rw [if_neg (by decide)] at hd
    generalize hr : Read.read 1 r = o at hd
    obtain ⟨o, r1⟩ := o
    match o, hr, hd with
    | .ok [], hr, hd => cases hd
    | .ok (b' :: d), hr, hd =>
      have h0 : 1 - (b' :: d).length = 0 := by simp only [List.length_cons]; omega
      cases f with
      | zero => cases hd
      | succ f =>
        simp only [readExactLoop] at hd
        rw [if_pos h0] at hd
        cases hd
        exact ⟨r, hr, fun _ _ h => h⟩
    | .error .interrupted, hr, hd =>
      obtain ⟨r0, h1, h2⟩ := exactOne_ok f r1 b r' hd
      exact ⟨r0, h1, fun N hN h => h2 N hN (hN.fail h (by decide) hr)⟩
    | .error .unexpectedEof, hr, hd => cases hd
    | .error (.other x), hr, hd => cases hd

theorem byte_err (h : Glow N) {r r' : R} {e : IoError} (hN : N r) (hd : readByte r = (.err e, r')) : N r' := by
  simp only [readByte, Bind.bind, Dec.bind, readExact] at hd
  generalize ho : readExactLoop (Read.weight r + 1) 1 [] r = o at hd
  obtain ⟨o, r1⟩ := o
  cases o with
  | ok v =>
    simp only at hd
    split at hd <;> cases hd
  | err e => cases hd; exact exactOne_err h _ _ _ _ hN ho
  | panic => cases hd
  | fuel => cases hd

theorem byte_ok {r r' : R} {b : UInt8} (hd : readByte r = (.ok b, r')) :
    ∃ r0, Read.read 1 r0 = (.ok [b], r') ∧ ∀ N : R → Prop, Glow N → N r → N r0 := by
  simp only [readByte, Bind.bind, Dec.bind, readExact] at hd
  generalize ho : readExactLoop (Read.weight r + 1) 1 [] r = o at hd
  obtain ⟨o, r1⟩ := o
  cases o with
  | ok v =>
    simp only at hd
    split at hd
    · cases hd
      exact exactOne_ok _ _ _ _ ho
    · cases hd
  | err e => cases hd
  | panic => cases hd
  | fuel => cases hd

theorem byte_keeps (h : Glow N) {r r' : R} {b : UInt8} (hN : N r) (hd : readByte r = (.ok b, r'))
    (hb : b ≠ 0) : N r' := by
  obtain ⟨r0, h1, h2⟩ := byte_ok hd
  exact h.byte (h2 N h hN) h1 hb

theorem byte_starts (h : Lamp N) {r r' : R} {b : UInt8} (hd : readByte r = (.ok b, r')) (hb : b ≠ 0) : N r' := by
  obtain ⟨r0, h1, _⟩ := byte_ok hd
  exact h.start h1 hb

/-! ### Signed integers of 33 bits -/

theorem msb_step {res : BitVec 64} {b : UInt8} {sh : Nat} (h : res.msb = false) (hs : sh ≤ 28) :
    (res ||| ((b &&& 0x7F).toBitVec.setWidth 64 <<< sh)).msb = false := by
  rw [BitVec.msb_or, h, Bool.false_or, BitVec.msb_eq_getLsbD_last, BitVec.getLsbD_shiftLeft,
    BitVec.getLsbD_setWidth]
  rw [BitVec.getLsbD_of_ge _ (64 - 1 - sh) (by omega)]
  simp

theorem nonneg_of_msb {res : BitVec 64} (h : res.msb = false) : 0 ≤ (Int64.ofBitVec res).toInt := by
  show 0 ≤ res.toInt
  rw [BitVec.toInt_eq_msb_cond, h]
  simp

theorem s33Loop_lit (h : Glow N) : ∀ rem (res : BitVec 64) sh, res.msb = false → sh + 7 * rem ≤ 35 →
    ∀ r, N r → (∀ x r', decodeS33Loop rem res sh r = (.ok x, r') → x.toInt < 0 → N r') ∧
      (∀ e r', decodeS33Loop rem res sh r = (.err e, r') → N r')
  | 0, _, _, _, _, r, hN => ⟨fun _ _ hd => (by cases hd), fun _ _ hd => (by cases hd; exact hN)⟩
  | rem + 1, res, sh, hm, hs, r, hN => by
    simp only [decodeS33Loop, Bind.bind, Dec.bind, Dec.mapErr]
    generalize hb : readByte r = o
    obtain ⟨o, r1⟩ := o
    cases o with
    | err e =>
      exact ⟨fun _ _ hd => (by cases hd), fun _ _ hd => (by cases hd; exact byte_err h hN hb)⟩
    | panic => exact ⟨fun _ _ hd => (by cases hd), fun _ _ hd => (by cases hd)⟩
    | fuel => exact ⟨fun _ _ hd => (by cases hd), fun _ _ hd => (by cases hd)⟩
    | ok b =>
      simp only
      rw [if_neg (show ¬ 64 ≤ sh by omega), if_neg (show ¬ 255 < sh + 7 by omega)]
      have hm' := msb_step (b := b) hm (show sh ≤ 28 by omega)
      by_cases h0 : b = 0
      · subst h0
        have e1 : ((0 : UInt8) &&& 0x80) = 0 := by decide
        have e2 : ((0 : UInt8) &&& 0x40) = 0 := by decide
        have e3 : ((0 : UInt8) &&& 0x70) = 0 := by decide
        rw [if_pos e1, if_neg (by rw [e2]; simp), if_neg (by rw [e3]; simp), if_neg (by rw [e2]; simp)]
        refine ⟨fun x r' hd hx => ?_, fun _ _ hd => (by cases hd)⟩
        cases hd
        have := nonneg_of_msb hm'
        omega
      · have hN1 := byte_keeps h hN hb h0
        split
        · split
          · exact ⟨fun _ _ hd => (by cases hd), fun _ _ hd => (by cases hd; exact hN1)⟩
          · split
            · exact ⟨fun _ _ hd => (by cases hd), fun _ _ hd => (by cases hd; exact hN1)⟩
            · split
              · rw [if_neg (show ¬ 64 ≤ sh + 7 by omega)]
                exact ⟨fun _ _ hd _ => (by cases hd; exact hN1), fun _ _ hd => (by cases hd)⟩
              · exact ⟨fun _ _ hd _ => (by cases hd; exact hN1), fun _ _ hd => (by cases hd)⟩
        · exact s33Loop_lit h rem _ _ hm' (by omega) r1 hN1

theorem s33_lit (h : Glow N) {r : R} (hN : N r) :
    (∀ x r', decodeS33 r = (.ok x, r') → x.toInt < 0 → N r') ∧
    (∀ e r', decodeS33 r = (.err e, r') → N r') :=
  s33Loop_lit h 5 0 0 rfl (by decide) r hN

/-- A single byte zero is the number zero. -/
theorem s33_zero (l : List UInt8) (i : R) :
    ∃ c', decodeS33 (⟨0 :: l, i⟩ : Chain R) = (.ok 0, c') ∧ c'.inner = i := by
  simp only [decodeS33, decodeS33Loop, Bind.bind, Dec.bind, Dec.mapErr, chain_readByte]
  exact ⟨_, rfl, rfl⟩

/-! ### Block types -/

theorem bind_errs {ε α β : Type} {d : Dec R ε α} {f : α → Dec R ε β} {r r' : R} {e : ε}
    (h : (d >>= f) r = (.err e, r')) :
    d r = (.err e, r') ∨ ∃ v r1, d r = (.ok v, r1) ∧ f v r1 = (.err e, r') := by
  simp only [Bind.bind, Dec.bind] at h
  generalize d r = o at h
  obtain ⟨o, r1⟩ := o
  cases o with
  | ok v => exact .inr ⟨v, r1, rfl, h⟩
  | err e => cases h; exact .inl rfl
  | panic => cases h
  | fuel => cases h

theorem mapErr_errs {ε ε' α : Type} {d : Dec R ε α} {f : ε → ε'} {r r' : R} {e : ε'}
    (h : d.mapErr f r = (.err e, r')) : ∃ e1, d r = (.err e1, r') := by
  simp only [Dec.mapErr] at h
  generalize d r = o at h
  obtain ⟨o, r1⟩ := o
  cases o <;> cases h
  exact ⟨_, rfl⟩

theorem mapErr_oks {ε ε' α : Type} {d : Dec R ε α} {f : ε → ε'} {r r' : R} {v : α}
    (h : d.mapErr f r = (.ok v, r')) : d r = (.ok v, r') := by
  simp only [Dec.mapErr] at h
  generalize d r = o at h
  obtain ⟨o, r1⟩ := o
  cases o <;> cases h
  rfl

theorem withChain_errs {ε α : Type} {b : UInt8} {d : Dec (Chain R) ε α} {r r' : R} {e : ε}
    (h : Dec.withChain b d r = (.err e, r')) : ∃ c, d ⟨[b], r⟩ = (.err e, c) ∧ c.inner = r' := by
  simp only [Dec.withChain] at h
  generalize d ⟨[b], r⟩ = o at h
  obtain ⟨o, c⟩ := o
  cases h
  exact ⟨c, rfl, rfl⟩

theorem withChain_oks {ε α : Type} {b : UInt8} {d : Dec (Chain R) ε α} {r r' : R} {v : α}
    (h : Dec.withChain b d r = (.ok v, r')) : ∃ c, d ⟨[b], r⟩ = (.ok v, c) ∧ c.inner = r' := by
  simp only [Dec.withChain] at h
  generalize d ⟨[b], r⟩ = o at h
  obtain ⟨o, c⟩ := o
  cases h
  exact ⟨c, rfl, rfl⟩

/-- The part of `HeapType::decode` and `BlockType::decode` behind the number. -/
theorem typeIndex_fails {ε α : Type} {x : Int64} {e e' : ε} {f : UInt32 → α} {r r' : R}
    (h : (if x.toInt < 0 then Dec.err e else do let y ← i64ToU32 x; pure (f y) : Dec R ε α) r = (.err e', r')) :
    x.toInt < 0 ∧ r = r' := by
  split at h
  · rename_i hx
    cases h
    exact ⟨hx, rfl⟩
  · rcases bind_errs h with h | ⟨_, _, _, h⟩
    · simp only [i64ToU32] at h
      split at h <;> cases h
    · cases h

theorem heapType_lit (h : Glow N) {r r' : R} {e : DecodeHeapTypeError} (hN : N r)
    (hd : HeapType.decode r = (.err e, r')) : N r' := by
  rcases bind_errs hd with hd | ⟨b, r1, hb, hd⟩
  · obtain ⟨e1, hd⟩ := mapErr_errs hd
    exact byte_err h hN hd
  · have hb := mapErr_oks hb
    generalize fromMarker AbsHeapType.markers b = mk at hd
    cases mk with
    | some t => cases hd
    | none =>
      by_cases h0 : b = 0
      · subst h0
        obtain ⟨c', h1, h2⟩ := s33_zero [] r1
        rcases bind_errs hd with hd | ⟨x, r2, hx, hd⟩
        · obtain ⟨e1, hd⟩ := mapErr_errs hd
          obtain ⟨c1, hd, _⟩ := withChain_errs hd
          rw [h1] at hd
          cases hd
        · obtain ⟨c1, hx, _⟩ := withChain_oks (mapErr_oks hx)
          rw [h1] at hx
          cases hx
          exact absurd (typeIndex_fails hd).1 (by decide)
      · have hN1 := byte_keeps h hN hb h0
        have hs := s33_lit h.chain (r := (⟨[b], r1⟩ : Chain R)) hN1
        rcases bind_errs hd with hd | ⟨x, r2, hx, hd⟩
        · obtain ⟨e1, hd⟩ := mapErr_errs hd
          obtain ⟨c1, hd2, rfl⟩ := withChain_errs hd
          exact hs.2 _ _ hd2
        · obtain ⟨c1, hx2, rfl⟩ := withChain_oks (mapErr_oks hx)
          obtain ⟨h2, rfl⟩ := typeIndex_fails hd
          exact hs.1 _ _ hx2 h2

theorem refType_lit (h : Glow N) {b : UInt8} (hb : b = 0x63 ∨ b = 0x64) {r : R} {c' : Chain R}
    {e : DecodeRefTypeError} (hN : N r) (hd : RefType.decode (⟨[b], r⟩ : Chain R) = (.err e, c')) :
    N c'.inner := by
  rcases bind_errs hd with hd | ⟨b', r1, hb', hd⟩
  · obtain ⟨e1, hd⟩ := mapErr_errs hd
    rw [chain_readByte] at hd
    cases hd
  · have hb' := mapErr_oks hb'
    rw [chain_readByte] at hb'
    cases hb'
    have key : ∀ (e : DecodeHeapTypeError) c', HeapType.decode (⟨[], r⟩ : Chain R) = (.err e, c') →
      N c'.inner := fun e c' hd => heapType_lit h.chain (r := ⟨[], r⟩) hN hd
    split at hd
    · rcases bind_errs hd with hd | ⟨_, _, _, hd⟩
      · obtain ⟨e1, hd⟩ := mapErr_errs hd
        exact key _ _ hd
      · cases hd
    · split at hd
      · rcases bind_errs hd with hd | ⟨_, _, _, hd⟩
        · obtain ⟨e1, hd⟩ := mapErr_errs hd
          exact key _ _ hd
        · cases hd
      · rename_i h1 h2
        rcases hb with hb | hb
        · exact absurd hb h1
        · exact absurd hb h2

theorem valType_lit (h : Glow N) {b : UInt8} (hb : b = 0x63 ∨ b = 0x64) {r : R} {c' : Chain R}
    {e : DecodeValTypeError} (hN : N r) (hd : ValType.decode (⟨[b], r⟩ : Chain R) = (.err e, c')) :
    N c'.inner := by
  have key := fun c2 e => refType_lit h.chain hb (r := (⟨[], r⟩ : Chain R)) (c' := c2) (e := e) hN
  rcases bind_errs hd with hd | ⟨b', r1, hb', hd⟩
  · obtain ⟨e1, hd⟩ := mapErr_errs hd
    rw [chain_readByte] at hd
    cases hd
  · have hb' := mapErr_oks hb'
    rw [chain_readByte] at hb'
    cases hb'
    iterate 5 (split at hd; · cases hd)
    rcases bind_errs hd with hd | ⟨_, _, _, hd⟩
    · obtain ⟨e1, hd⟩ := mapErr_errs hd
      obtain ⟨c1, hd2, rfl⟩ := withChain_errs hd
      exact key _ _ hd2
    · cases hd

/-- On `0x63` or `0x64` the type index is a single, negative byte, and nothing more is read. -/
theorem blockTypeIndex_murky {b : UInt8} (h : b = 0x63 ∨ b = 0x64) (r : R) :
    ∃ e c, blockTypeIndex (⟨[b], r⟩ : Chain R) = (.err e, c) ∧ c.inner = r ∧ ErrInfo.murky e = true := by
  rcases h with rfl | rfl <;>
  · simp only [blockTypeIndex, decodeS33, decodeS33Loop, Bind.bind, Dec.bind, Dec.mapErr, chain_readByte]
    exact ⟨_, _, rfl, rfl, by decide⟩

theorem blockTypeIndex_lit (h : Glow N) {b : UInt8} {r : R} (hN : b ≠ 0 → N r) {c' : Chain R}
    {e : BlockTypeError} (hd : blockTypeIndex (⟨[b], r⟩ : Chain R) = (.err e, c')) : N c'.inner := by
  by_cases h0 : b = 0
  · subst h0
    obtain ⟨c2, h1, h2⟩ := s33_zero [] r
    rcases bind_errs hd with hd | ⟨x, r2, hx, hd⟩
    · obtain ⟨e1, hd⟩ := mapErr_errs hd
      rw [h1] at hd
      cases hd
    · have hx := mapErr_oks hx
      rw [h1] at hx
      cases hx
      exact absurd (typeIndex_fails hd).1 (by decide)
  · have hs := s33_lit h.chain (r := (⟨[b], r⟩ : Chain R)) (hN h0)
    rcases bind_errs hd with hd | ⟨x, r2, hx, hd⟩
    · obtain ⟨e1, hd⟩ := mapErr_errs hd
      exact hs.2 _ _ hd
    · obtain ⟨h2, rfl⟩ := typeIndex_fails hd
      exact hs.1 _ _ (mapErr_oks hx) h2

theorem blockType_lit (h : Lamp N) {r r' : R} {e : BlockTypeError}
    (hd : BlockType.decode r = (.err e, r')) (hm : ErrInfo.murky e = true) : N r' := by
  simp only [BlockType.decode, Bind.bind, Dec.bind, Dec.mapErr] at hd
  generalize hb : readByte r = o at hd
  obtain ⟨o, r1⟩ := o
  cases o with
  | err e => cases hd; cases hm
  | panic => cases hd
  | fuel => cases hd
  | ok b =>
    simp only at hd
    split at hd
    · cases hd
    · have hN1 : b ≠ 0 → N r1 := byte_starts h hb
      simp only [Dec.withChain, Dec.orElseDiscard] at hd
      have hv := fun hb c e => valType_lit h.toGlow (b := b) (r := r1) (c' := c) (e := e) hb
      have hc := valType_chain (b := b) (r := r1)
      generalize ValType.decode (⟨[b], r1⟩ : Chain R) = o at hd hv hc
      obtain ⟨o, c⟩ := o
      cases o with
      | ok v => cases hd
      | panic => cases hd
      | fuel => cases hd
      | err e' =>
        simp only at hd
        have hNc : b ≠ 0 → N c.inner := by
          intro h0
          by_cases hb' : b = 0x63 ∨ b = 0x64
          · exact hv hb' c e' (hN1 h0) rfl
          · have hc := hc (fun h => hb' (.inl h)) (fun h => hb' (.inr h))
            simp only at hc
            rw [hc]
            exact hN1 h0
        generalize ho : blockTypeIndex (⟨[b], c⟩ : Chain (Chain R)) = o at hd
        obtain ⟨o, c1⟩ := o
        have := blockTypeIndex_lit h.toGlow.chain (b := b) (r := c) (c' := c1) (e := e) hNc
        cases hd
        exact this ho

end Wadec
