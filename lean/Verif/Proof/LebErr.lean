import Verif.Proof.Leb
import Verif.Spec.Leb

/-! The errors of the integer decoders, and the closed form of LEB128. -/

namespace Wadec

open LawfulRead Spec

section
variable {R : Type} [LawfulRead R] {ε α : Type}

/-- The shape the five integer decoders share. -/
inductive LebLoop (io : IoError → ε) (long bad : ε) : Nat → Dec R ε α → Prop
  | zero : LebLoop io long bad 0 (Dec.err long)
  | succ {rem : Nat} {f : UInt8 → Dec R ε α}
      (h1 : ∀ b, 128 ≤ b.toNat → LebLoop io long bad rem (f b))
      (h2 : ∀ b, b.toNat < 128 → (∃ v, f b = pure v) ∨ f b = Dec.err bad) :
      LebLoop io long bad (rem + 1) (readByte.mapErr io >>= f)

variable {io : IoError → ε} {long bad : ε} {n : Nat} {d : Dec R ε α}

theorem AllCont.tail {b : UInt8} {bs : Bytes} (h : AllCont (b :: bs)) : AllCont bs :=
  fun x hx => h x (List.mem_cons_of_mem _ hx)

theorem LebLoop.ends (h : LebLoop io long bad n d) : ∀ bs, AllCont bs → bs.length < n →
    Ends d bs io := by
  induction h with
  | zero => intro bs _ hl; simp at hl
  | @succ rem f h1 h2 ih =>
    intro bs hc hl
    cases bs with
    | nil => exact Ends.bind1 (Ends.mapErr Ends.readByte)
    | cons b bs =>
      simp only [List.length_cons] at hl
      exact Ends.bind2 (b1 := [b]) (Runs.mapErr Runs.readByte)
        (ih b (hc b (by simp)) bs (Wadec.AllCont.tail hc) (by omega))

theorem LebLoop.fails_long (h : LebLoop io long bad n d) : ∀ bs, AllCont bs → bs.length = n →
    Fails d bs long := by
  induction h with
  | zero =>
    intro bs _ hl
    rw [List.length_eq_zero_iff] at hl
    subst hl
    exact Fails.err
  | @succ rem f h1 h2 ih =>
    intro bs hc hl
    cases bs with
    | nil => simp at hl
    | cons b bs =>
      simp only [List.length_cons] at hl
      exact Fails.bind2 (b1 := [b]) (Runs.mapErr Runs.readByte)
        (ih b (hc b (by simp)) bs (Wadec.AllCont.tail hc) (by omega))

theorem LebLoop.terminated (h : LebLoop io long bad n d) : ∀ bs, Terminated bs → bs.length ≤ n →
    (∃ v, Runs d bs v) ∨ Fails d bs bad := by
  induction h with
  | zero =>
    rintro bs ⟨cs, b, rfl, _⟩ hl
    simp at hl
  | @succ rem f h1 h2 ih =>
    rintro bs ⟨cs, b, rfl, hc, hb⟩ hl
    cases cs with
    | nil =>
      rcases h2 b hb with ⟨v, hv⟩ | hv
      · exact .inl ⟨v, Runs.bind (b1 := [b]) (b2 := []) (Runs.mapErr Runs.readByte)
          (by rw [hv]; exact Runs.pure)⟩
      · exact .inr (Fails.bind2 (b1 := [b]) (b2 := []) (Runs.mapErr Runs.readByte)
          (by rw [hv]; exact Fails.err))
    | cons c cs =>
      simp only [List.cons_append, List.length_cons] at hl
      rcases ih c (hc c (by simp)) (cs ++ [b]) ⟨cs, b, rfl, (Wadec.AllCont.tail hc), hb⟩ (by omega) with ⟨v, hv⟩ | hv
      · exact .inl ⟨v, Runs.bind (b1 := [c]) (Runs.mapErr Runs.readByte) hv⟩
      · exact .inr (Fails.bind2 (b1 := [c]) (Runs.mapErr Runs.readByte) hv)

/-- How a byte string starts, as far as an integer of at most `n` bytes is concerned. -/
theorem leb_cases (n : Nat) (bs : Bytes) :
    (AllCont bs ∧ bs.length < n) ∨ (n ≤ bs.length ∧ AllCont (bs.take n)) ∨
    (∃ t rest, bs = t ++ rest ∧ Terminated t ∧ t.length ≤ n) := by
  induction n generalizing bs with
  | zero => exact .inr (.inl ⟨by omega, by simp [AllCont]⟩)
  | succ n ih =>
    cases bs with
    | nil => exact .inl ⟨by simp [AllCont], by simp⟩
    | cons b bs =>
      by_cases hb : b.toNat < 128
      · exact .inr (.inr ⟨[b], bs, rfl, ⟨[], b, rfl, by simp [AllCont], hb⟩, by simp⟩)
      · have hb' : 128 ≤ b.toNat := by omega
        have hcons : ∀ l, AllCont l → AllCont (b :: l) := by
          intro l h x hx
          rcases List.mem_cons.1 hx with rfl | hx
          · exact hb'
          · exact h x hx
        rcases ih bs with ⟨h1, h2⟩ | ⟨h1, h2⟩ | ⟨t, rest, rfl, ⟨cs, c, rfl, h3, h4⟩, h5⟩
        · exact .inl ⟨hcons _ h1, by simp; omega⟩
        · exact .inr (.inl ⟨by simp; omega, by simpa using hcons _ h2⟩)
        · exact .inr (.inr ⟨b :: (cs ++ [c]), rest, by simp, ⟨b :: cs, c, by simp, hcons _ h3, h4⟩,
            by simpa using h5⟩)

theorem terminated_not_cont {t rest : Bytes} (h : Terminated t) : ¬ AllCont (t ++ rest) := by
  obtain ⟨cs, b, rfl, _, hb⟩ := h
  intro hc
  have := hc b (by simp)
  omega

theorem terminated_not_cont_take {t rest : Bytes} {n : Nat} (h : Terminated t) (hl : t.length ≤ n) :
    ¬ AllCont ((t ++ rest).take n) := by
  have : (t ++ rest).take n = t ++ rest.take (n - t.length) := by
    rw [List.take_append, List.take_of_length_le hl]
  rw [this]
  exact terminated_not_cont h

theorem terminated_unique : ∀ {t t' rest rest' : Bytes}, Terminated t → Terminated t' →
    t ++ rest = t' ++ rest' → t = t' := by
  have aux : ∀ (cs cs' : Bytes) (b b' : UInt8) (rest rest' : Bytes), AllCont cs → AllCont cs' →
      b.toNat < 128 → b'.toNat < 128 → cs ++ b :: rest = cs' ++ b' :: rest' →
      cs = cs' ∧ b = b' := by
    intro cs
    induction cs with
    | nil =>
      intro cs' b b' rest rest' _ h2 h3 h4 h
      cases cs' with
      | nil => simp at h; exact ⟨rfl, h.1⟩
      | cons c cs' =>
        simp at h
        have := h2 c (by simp)
        rw [h.1] at h3; omega
    | cons c cs ih =>
      intro cs' b b' rest rest' h1 h2 h3 h4 h
      cases cs' with
      | nil =>
        simp at h
        have := h1 c (by simp)
        rw [← h.1] at h4; omega
      | cons c' cs' =>
        simp at h
        obtain ⟨rfl, h⟩ := h
        obtain ⟨rfl, rfl⟩ := ih cs' b b' rest rest' (Wadec.AllCont.tail h1) (Wadec.AllCont.tail h2) h3 h4 h
        exact ⟨rfl, rfl⟩
  rintro t t' rest rest' ⟨cs, b, rfl, h1, h2⟩ ⟨cs', b', rfl, h1', h2'⟩ h
  obtain ⟨rfl, rfl⟩ := aux cs cs' b b' rest rest' h1 h1' h2 h2' (by simpa using h)
  rfl

theorem LebLoop.classifies (h : LebLoop io long bad n d) {inRange : Bytes → Prop}
    (hs : Sound d (fun bs _ => Terminated bs ∧ bs.length ≤ n ∧ inRange bs))
    (hr : ∀ bs, Terminated bs → bs.length ≤ n → inRange bs → ∃ v, Runs d bs v)
    (hio : ∀ x y, io x = io y → x = y) (h1 : ∀ x, io x ≠ long) (h2 : ∀ x, io x ≠ bad)
    (h3 : long ≠ bad) : Classifies d n io long bad inRange := by
  have key : ∀ r, (AllCont (avail r) ∧ (avail r).length < n ∧
        ∃ r', d r = (.err (io (fin r).toErr), r')) ∨
      (n ≤ (avail r).length ∧ AllCont ((avail r).take n) ∧ ∃ r', d r = (.err long, r')) ∨
      (∃ t rest, avail r = t ++ rest ∧ Terminated t ∧ t.length ≤ n ∧
        ((inRange t ∧ ∃ v r', d r = (.ok v, r')) ∨ (¬ inRange t ∧ ∃ r', d r = (.err bad, r')))) := by
    intro r
    rcases leb_cases n (avail r) with ⟨c1, c2⟩ | ⟨c1, c2⟩ | ⟨t, rest, c1, c2, c3⟩
    · exact .inl ⟨c1, c2, h.ends _ c1 c2 r rfl⟩
    · exact .inr (.inl ⟨c1, c2, h.fails_long _ c2 (by simp [c1]) r ((avail r).drop n) (by simp)⟩)
    · refine .inr (.inr ⟨t, rest, c1, c2, c3, ?_⟩)
      by_cases hin : inRange t
      · obtain ⟨v, hv⟩ := hr t c2 c3 hin
        obtain ⟨r', h', _⟩ := hv r rest c1
        exact .inl ⟨hin, v, r', h'⟩
      · refine .inr ⟨hin, ?_⟩
        rcases h.terminated t c2 c3 with ⟨v, hv⟩ | hf
        · obtain ⟨r', h', a⟩ := hv r rest c1
          obtain ⟨bs, a', p1, p2, p3⟩ := hs _ _ _ h'
          have e : bs = t := by
            refine terminated_unique (rest := avail r') (rest' := rest) p1 c2 ?_
            rw [← adv_avail a', c1]
          subst e
          exact absurd p3 hin
        · exact hf r rest c1
  refine ⟨fun r e => ⟨?_, ?_⟩, fun r => ⟨?_, ?_⟩, fun r => ⟨?_, ?_⟩, ?_⟩
  · rintro ⟨r', he⟩
    rcases key r with ⟨c1, c2, r'', c3⟩ | ⟨c1, c2, r'', c3⟩ | ⟨t, rest, c1, c2, c3, ⟨_, v, r'', c4⟩ | ⟨_, r'', c4⟩⟩
    · rw [he] at c3
      simp only [Prod.mk.injEq, Res.err.injEq] at c3
      exact ⟨c1, c2, hio _ _ c3.1⟩
    · rw [he] at c3; simp only [Prod.mk.injEq, Res.err.injEq] at c3; exact absurd c3.1 (h1 _)
    · rw [he] at c4; simp at c4
    · rw [he] at c4; simp only [Prod.mk.injEq, Res.err.injEq] at c4; exact absurd c4.1 (h2 _)
  · rintro ⟨c1, c2, rfl⟩
    exact h.ends _ c1 c2 r rfl
  · rintro ⟨r', he⟩
    rcases key r with ⟨c1, c2, r'', c3⟩ | ⟨c1, c2, r'', c3⟩ | ⟨t, rest, c1, c2, c3, ⟨_, v, r'', c4⟩ | ⟨_, r'', c4⟩⟩
    · rw [he] at c3; simp only [Prod.mk.injEq, Res.err.injEq] at c3; exact absurd c3.1.symm (h1 _)
    · exact ⟨c1, c2⟩
    · rw [he] at c4; simp at c4
    · rw [he] at c4; simp only [Prod.mk.injEq, Res.err.injEq] at c4; exact absurd c4.1 h3
  · rintro ⟨c1, c2⟩
    exact h.fails_long _ c2 (by simp [c1]) r ((avail r).drop n) (by simp)
  · rintro ⟨r', he⟩
    rcases key r with ⟨c1, c2, r'', c3⟩ | ⟨c1, c2, r'', c3⟩ | ⟨t, rest, c1, c2, c3, ⟨_, v, r'', c4⟩ | ⟨c5, r'', c4⟩⟩
    · rw [he] at c3; simp only [Prod.mk.injEq, Res.err.injEq] at c3; exact absurd c3.1.symm (h2 _)
    · rw [he] at c3; simp only [Prod.mk.injEq, Res.err.injEq] at c3; exact absurd c3.1.symm h3
    · rw [he] at c4; simp at c4
    · exact ⟨t, rest, c1, c2, c3, c5⟩
  · rintro ⟨t', rest', c1', c2', c3', c5'⟩
    rcases key r with ⟨c1, c2, _⟩ | ⟨c1, c2, _⟩ | ⟨t, rest, c1, c2, c3, ⟨c5, _⟩ | ⟨_, c4⟩⟩
    · rw [c1'] at c1; exact absurd c1 (terminated_not_cont c2')
    · rw [c1'] at c2; exact absurd c2 (terminated_not_cont_take c2' c3')
    · have := terminated_unique c2 c2' (by rw [← c1, c1'])
      subst this
      exact absurd c5 c5'
    · exact c4
  · intro r e r' he
    rcases key r with ⟨_, _, r'', c3⟩ | ⟨_, _, r'', c3⟩ | ⟨t, rest, c1, c2, c3, ⟨_, v, r'', c4⟩ | ⟨_, r'', c4⟩⟩
    · rw [he] at c3; cases c3; exact .inl ⟨_, rfl⟩
    · rw [he] at c3; cases c3; exact .inr (.inl rfl)
    · rw [he] at c4; simp at c4
    · rw [he] at c4; cases c4; exact .inr (.inr rfl)

/-! ### The loops -/

theorem u32Loop_leb : ∀ (rem i : Nat) (res : BitVec 32) (s : Nat), i + rem = 6 → 1 ≤ i →
    s = 7 * (i - 1) →
    LebLoop DecodeU32Error.Io .RepresentationTooLong .TooLarge rem
      (decodeU32Loop rem i res s : Dec R _ _) := by
  intro rem
  induction rem with
  | zero => intros; exact .zero
  | succ rem ih =>
    intro i res s hi h1 hs
    simp only [decodeU32Loop]
    refine .succ (fun b hb => ?_) fun b hb => ?_
    · rw [if_neg (by omega), if_neg (by rw [and80]; omega), if_neg (by omega)]
      exact ih (i + 1) _ (s + 7) (by omega) (by omega) (by omega)
    · rw [if_neg (by omega), if_pos (by rw [and80]; omega)]
      split
      · exact .inr rfl
      · exact .inl ⟨_, rfl⟩

theorem u64Loop_leb : ∀ (rem i : Nat) (res : BitVec 64) (s : Nat), i + rem = 11 → 1 ≤ i →
    s = 7 * (i - 1) →
    LebLoop DecodeU64Error.Io .RepresentationTooLong .TooLarge rem
      (decodeU64Loop rem i res s : Dec R _ _) := by
  intro rem
  induction rem with
  | zero => intros; exact .zero
  | succ rem ih =>
    intro i res s hi h1 hs
    simp only [decodeU64Loop]
    refine .succ (fun b hb => ?_) fun b hb => ?_
    · rw [if_neg (by omega), if_neg (by rw [and80]; omega), if_neg (by omega)]
      exact ih (i + 1) _ (s + 7) (by omega) (by omega) (by omega)
    · rw [if_neg (by omega), if_pos (by rw [and80]; omega)]
      split
      · exact .inr rfl
      · exact .inl ⟨_, rfl⟩

theorem i32Loop_leb : ∀ (rem : Nat) (res : BitVec 64) (s : Nat), rem ≤ 5 → s = 7 * (5 - rem) →
    LebLoop DecodeI32Error.Io .RepresentationTooLong .TooLarge rem
      (decodeI32Loop rem res s : Dec R _ _) := by
  intro rem
  induction rem with
  | zero => intros; exact .zero
  | succ rem ih =>
    intro res s hrem hs
    simp only [decodeI32Loop]
    refine .succ (fun b hb => ?_) fun b hb => ?_
    · rw [if_neg (by omega), if_neg (by omega), if_neg (by rw [and80]; omega)]
      exact ih _ (s + 7) (by omega) (by omega)
    · rw [if_neg (by omega), if_neg (by omega), if_pos (by rw [and80]; omega),
        if_neg (fun h => by omega)]
      have key : ∀ x : BitVec 64,
          (∃ v, (if ¬ (-2147483648 ≤ x.toInt ∧ x.toInt ≤ 2147483647) then Dec.err .TooLarge
            else if -2147483648 ≤ x.toInt ∧ x.toInt ≤ 2147483647 then pure (Int32.ofInt x.toInt)
            else Dec.panic : Dec R DecodeI32Error Int32) = pure v) ∨
          (if ¬ (-2147483648 ≤ x.toInt ∧ x.toInt ≤ 2147483647) then Dec.err .TooLarge
            else if -2147483648 ≤ x.toInt ∧ x.toInt ≤ 2147483647 then pure (Int32.ofInt x.toInt)
            else Dec.panic : Dec R DecodeI32Error Int32) = Dec.err .TooLarge := by
        intro x
        by_cases h : -2147483648 ≤ x.toInt ∧ x.toInt ≤ 2147483647
        · rw [if_neg (fun h' => h' h), if_pos h]; exact .inl ⟨_, rfl⟩
        · rw [if_pos h]; exact .inr rfl
      exact key _

theorem i64Loop_leb : ∀ (rem : Nat) (res : BitVec 64) (s : Nat), rem ≤ 10 → s = 7 * (10 - rem) →
    LebLoop DecodeI64Error.Io .RepresentationTooLong .IncorrectSignExtension rem
      (decodeI64Loop rem res s : Dec R _ _) := by
  intro rem
  induction rem with
  | zero => intros; exact .zero
  | succ rem ih =>
    intro res s hrem hs
    simp only [decodeI64Loop]
    refine .succ (fun b hb => ?_) fun b hb => ?_
    · rw [if_neg (by omega), if_neg (by omega), if_neg (by rw [and80]; omega)]
      exact ih _ (s + 7) (by omega) (by omega)
    · rw [if_neg (by omega), if_neg (by omega), if_pos (by rw [and80]; omega)]
      split
      · split
        · exact .inr rfl
        · split
          · exact .inr rfl
          · exact .inl ⟨_, rfl⟩
      · split
        · exact .inl ⟨_, rfl⟩
        · exact .inl ⟨_, rfl⟩

theorem s33Loop_leb : ∀ (rem : Nat) (res : BitVec 64) (s : Nat), rem ≤ 5 → s = 7 * (5 - rem) →
    LebLoop DecodeS33Error.Io .RepresentationTooLong .IncorrectSignExtension rem
      (decodeS33Loop rem res s : Dec R _ _) := by
  intro rem
  induction rem with
  | zero => intros; exact .zero
  | succ rem ih =>
    intro res s hrem hs
    simp only [decodeS33Loop]
    refine .succ (fun b hb => ?_) fun b hb => ?_
    · rw [if_neg (by omega), if_neg (by omega), if_neg (by rw [and80]; omega)]
      exact ih _ (s + 7) (by omega) (by omega)
    · rw [if_neg (by omega), if_neg (by omega), if_pos (by rw [and80]; omega)]
      split
      · exact .inr rfl
      · split
        · exact .inr rfl
        · split
          · rw [if_neg (by omega)]; exact .inl ⟨_, rfl⟩
          · exact .inl ⟨_, rfl⟩

end

/-! ### Closed form -/

theorem terminated_cons {b : UInt8} {bs : Bytes} :
    Terminated (b :: bs) ↔ (b.toNat < 128 ∧ bs = []) ∨ (128 ≤ b.toNat ∧ Terminated bs) := by
  constructor
  · rintro ⟨cs, c, h, hc, hb⟩
    cases cs with
    | nil => simp at h; obtain ⟨rfl, rfl⟩ := h; exact .inl ⟨hb, rfl⟩
    | cons d cs =>
      simp at h
      obtain ⟨rfl, rfl⟩ := h
      exact .inr ⟨hc _ (by simp), cs, c, rfl, Wadec.AllCont.tail hc, hb⟩
  · rintro (⟨h, rfl⟩ | ⟨h, cs, c, rfl, hc, hb⟩)
    · exact ⟨[], b, rfl, by simp [AllCont], h⟩
    · refine ⟨b :: cs, c, rfl, ?_, hb⟩
      intro x hx
      rcases List.mem_cons.1 hx with rfl | hx
      · exact h
      · exact hc x hx

theorem terminated_ne {bs : Bytes} (h : Terminated bs) : bs ≠ [] := by
  obtain ⟨cs, b, rfl, _⟩ := h
  simp

theorem BU_closed : ∀ {bs : Bytes} {N v : Nat}, 1 ≤ N →
    (BU N bs v ↔ Terminated bs ∧ 7 * (bs.length - 1) < N ∧ v = uleb bs ∧ v < 2 ^ N) := by
  intro bs
  induction bs with
  | nil =>
    intro N v hN
    constructor
    · intro h; cases h
    · rintro ⟨h, _⟩; exact absurd rfl (terminated_ne h)
  | cons b bs ih =>
    intro N v hN
    have hb := b.toNat_lt
    rw [terminated_cons]
    constructor
    · intro h
      cases h with
      | last h1 h2 =>
        exact ⟨.inl ⟨h1, rfl⟩, by simp; omega, by simp [uleb]; omega, h2⟩
      | @more _ _ _ m h1 h2 h3 =>
        obtain ⟨k1, k2, k3, k4⟩ := (ih (N := N - 7) (by omega)).1 h3
        have : 2 ^ N = 2 ^ (N - 7) * 128 := by
          rw [← pow_add7]; congr 1; omega
        refine ⟨.inr ⟨by omega, k1⟩, ?_, ?_, by omega⟩
        · have := List.length_pos_iff.2 (terminated_ne k1)
          simp only [List.length_cons]; omega
        · simp only [uleb]; rw [← k3]; omega
    · rintro ⟨⟨h1, rfl⟩ | ⟨h1, h2⟩, h3, h4, h5⟩
      · have : v = b.toNat := by simp [uleb] at h4; omega
        subst this
        exact .last (by omega) h5
      · have hl := List.length_pos_iff.2 (terminated_ne h2)
        simp only [List.length_cons] at h3
        have : 2 ^ N = 2 ^ (N - 7) * 128 := by
          rw [← pow_add7]; congr 1; omega
        simp only [uleb] at h4
        have hv : v = 2 ^ 7 * uleb bs + (b.toNat - 2 ^ 7) := by omega
        rw [hv]
        exact .more (by omega) (by omega) ((ih (by omega)).2 ⟨h2, by omega, rfl, by omega⟩)

theorem sleb_cons {b : UInt8} {bs : Bytes} (h : bs ≠ []) :
    sleb (b :: bs) = (b.toNat % 128 : Int) + 128 * sleb bs := by
  cases bs with
  | nil => exact absurd rfl h
  | cons => rfl

theorem BS_closed : ∀ {bs : Bytes} {N : Nat} {v : Int}, 1 ≤ N →
    (BS N bs v ↔ Terminated bs ∧ 7 * (bs.length - 1) < N ∧ v = sleb bs ∧
      -2 ^ (N - 1) ≤ v ∧ v < 2 ^ (N - 1)) := by
  intro bs
  induction bs with
  | nil =>
    intro N v hN
    constructor
    · intro h; cases h
    · rintro ⟨h, _⟩; exact absurd rfl (terminated_ne h)
  | cons b bs ih =>
    intro N v hN
    have hb := b.toNat_lt
    rw [terminated_cons]
    constructor
    · intro h
      rcases Wadec.BS.cases_last h with ⟨c, h1, h2, h3, h4, h5⟩ | ⟨c, t, m, h1, h2, h3, h4, h5⟩
      · simp at h1
        obtain ⟨rfl, rfl⟩ := h1
        refine ⟨.inl ⟨h2, rfl⟩, by simp; omega, ?_, h4, h5⟩
        rw [h3]
        simp only [Wadec.lastVal, sleb]
        split <;> split <;> omega
      · simp at h1
        obtain ⟨rfl, rfl⟩ := h1
        obtain ⟨k1, k2, k3, k4, k5⟩ := (ih (N := N - 7) (by omega)).1 h4
        have : (2 : Int) ^ (N - 1) = 2 ^ (N - 7 - 1) * 128 := by
          rw [← ipow_add7]; congr 1; omega
        refine ⟨.inr ⟨by omega, k1⟩, ?_, ?_, by omega, by omega⟩
        · have := List.length_pos_iff.2 (terminated_ne k1)
          simp only [List.length_cons]; omega
        · rw [sleb_cons (terminated_ne k1), ← k3]; omega
    · rintro ⟨⟨h1, rfl⟩ | ⟨h1, h2⟩, h3, h4, h5, h6⟩
      · have : v = Wadec.lastVal b := by
          rw [h4]; simp only [Wadec.lastVal, sleb]
          split <;> split <;> omega
        subst this
        exact Wadec.BS.lastVal h1 h5 h6
      · have hl := List.length_pos_iff.2 (terminated_ne h2)
        simp only [List.length_cons] at h3
        have : (2 : Int) ^ (N - 1) = 2 ^ (N - 7 - 1) * 128 := by
          rw [← ipow_add7]; congr 1; omega
        rw [sleb_cons (terminated_ne h2)] at h4
        have hv : v = 2 ^ 7 * sleb bs + ((b.toNat : Int) - 2 ^ 7) := by omega
        rw [hv]
        exact .more (by omega) (by omega) ((ih (by omega)).2 ⟨h2, by omega, rfl, by omega, by omega⟩)

/-! ### Classification of the errors -/

section
variable {R : Type} [LawfulRead R]

theorem decodeU32_classifies : Classifies (decodeU32 : Dec R _ _) 5 .Io .RepresentationTooLong
    .TooLarge (fun bs => uleb bs < 2 ^ 32) := by
  refine LebLoop.classifies (u32Loop_leb 5 1 0 0 rfl (by omega) rfl) ?_ ?_ (by simp) (by simp)
    (by simp) (by simp)
  · refine Sound.mono decodeU32_sound ?_
    intro bs v h
    obtain ⟨h1, h2, h3, h4⟩ := (BU_closed (by omega)).1 h
    exact ⟨h1, by omega, by omega⟩
  · intro bs h1 h2 h3
    exact ⟨UInt32.ofNat (uleb bs), decodeU32_runs ((BU_closed (by omega)).2
      ⟨h1, by omega, by simp; omega, UInt32.toNat_lt _⟩)⟩

theorem decodeU64_classifies : Classifies (decodeU64 : Dec R _ _) 10 .Io .RepresentationTooLong
    .TooLarge (fun bs => uleb bs < 2 ^ 64) := by
  refine LebLoop.classifies (u64Loop_leb 10 1 0 0 rfl (by omega) rfl) ?_ ?_ (by simp) (by simp)
    (by simp) (by simp)
  · refine Sound.mono decodeU64_sound ?_
    intro bs v h
    obtain ⟨h1, h2, h3, h4⟩ := (BU_closed (by omega)).1 h
    exact ⟨h1, by omega, by omega⟩
  · intro bs h1 h2 h3
    exact ⟨UInt64.ofNat (uleb bs), decodeU64_runs ((BU_closed (by omega)).2
      ⟨h1, by omega, by simp; omega, UInt64.toNat_lt _⟩)⟩

theorem decodeI32_classifies : Classifies (decodeI32 : Dec R _ _) 5 .Io .RepresentationTooLong
    .TooLarge (fun bs => -2 ^ 31 ≤ sleb bs ∧ sleb bs < 2 ^ 31) := by
  refine LebLoop.classifies (i32Loop_leb 5 0 0 (by omega) rfl) ?_ ?_ (by simp) (by simp)
    (by simp) (by simp)
  · refine Sound.mono decodeI32_sound ?_
    intro bs v h
    obtain ⟨h1, h2, h3, h4⟩ := (BS_closed (by omega)).1 h
    rw [h3] at h4
    exact ⟨h1, by omega, h4⟩
  · intro bs h1 h2 h3
    have e : (Int32.ofInt (sleb bs)).toInt = sleb bs :=
      Int32.toInt_ofInt_of_le (by omega) (by omega)
    exact ⟨Int32.ofInt (sleb bs), decodeI32_runs ((BS_closed (by omega)).2
      ⟨h1, by omega, e, by rw [e]; exact h3⟩)⟩

theorem decodeI64_classifies : Classifies (decodeI64 : Dec R _ _) 10 .Io .RepresentationTooLong
    .IncorrectSignExtension (fun bs => -2 ^ 63 ≤ sleb bs ∧ sleb bs < 2 ^ 63) := by
  refine LebLoop.classifies (i64Loop_leb 10 0 0 (by omega) rfl) ?_ ?_ (by simp) (by simp)
    (by simp) (by simp)
  · refine Sound.mono decodeI64_sound ?_
    intro bs v h
    obtain ⟨h1, h2, h3, h4⟩ := (BS_closed (by omega)).1 h
    rw [h3] at h4
    exact ⟨h1, by omega, h4⟩
  · intro bs h1 h2 h3
    have e : (Int64.ofInt (sleb bs)).toInt = sleb bs :=
      Int64.toInt_ofInt_of_le (by omega) (by omega)
    exact ⟨Int64.ofInt (sleb bs), decodeI64_runs ((BS_closed (by omega)).2
      ⟨h1, by omega, e, by rw [e]; exact h3⟩)⟩

theorem decodeS33_classifies : Classifies (decodeS33 : Dec R _ _) 5 .Io .RepresentationTooLong
    .IncorrectSignExtension (fun bs => -2 ^ 32 ≤ sleb bs ∧ sleb bs < 2 ^ 32) := by
  refine LebLoop.classifies (s33Loop_leb 5 0 0 (by omega) rfl) ?_ ?_ (by simp) (by simp)
    (by simp) (by simp)
  · refine Sound.mono decodeS33_sound ?_
    intro bs v h
    obtain ⟨h1, h2, h3, h4⟩ := (BS_closed (by omega)).1 h
    rw [h3] at h4
    exact ⟨h1, by omega, h4⟩
  · intro bs h1 h2 h3
    have e : (Int64.ofInt (sleb bs)).toInt = sleb bs :=
      Int64.toInt_ofInt_of_le (by omega) (by omega)
    exact ⟨Int64.ofInt (sleb bs), decodeS33_runs ((BS_closed (by omega)).2
      ⟨h1, by omega, e, by rw [e]; exact h3⟩)⟩

end

/-! ### Encoders -/

theorem toNat_ofNat_lt {n : Nat} (h : n < 256) : (UInt8.ofNat n).toNat = n := by
  simp; omega

theorem uEnc_length : ∀ k n, (uEnc k n).length = k
  | 0, _ => rfl
  | 1, _ => rfl
  | k + 2, n => by simp [uEnc, uEnc_length (k + 1)]

theorem sEnc_length : ∀ k n, (sEnc k n).length = k
  | 0, _ => rfl
  | 1, _ => rfl
  | k + 2, n => by simp [sEnc, sEnc_length (k + 1)]

theorem uEnc_spec : ∀ {k n : Nat}, 1 ≤ k → n < 2 ^ (7 * k) →
    Terminated (uEnc k n) ∧ uleb (uEnc k n) = n := by
  intro k
  induction k with
  | zero => intro n h; omega
  | succ k ih =>
    intro n _ hn
    cases k with
    | zero =>
      have := toNat_ofNat_lt (n := n % 128) (by omega)
      simp only [uEnc, uleb, this, terminated_cons]
      refine ⟨.inl ⟨by omega, trivial⟩, by omega⟩
    | succ k =>
      have h128 := toNat_ofNat_lt (n := 128 + n % 128) (by omega)
      have hp : 2 ^ (7 * (k + 1 + 1)) = 2 ^ (7 * (k + 1)) * 128 := by
        rw [← pow_add7]; congr 1
      obtain ⟨h1, h2⟩ := ih (n := n / 128) (by omega) (by omega)
      simp only [uEnc, uleb, h128, terminated_cons, h2]
      exact ⟨.inr ⟨by omega, h1⟩, by omega⟩

theorem sEnc_spec : ∀ {k : Nat} {n : Int}, 1 ≤ k → -2 ^ (7 * k - 1) ≤ n → n < 2 ^ (7 * k - 1) →
    Terminated (sEnc k n) ∧ sleb (sEnc k n) = n := by
  intro k
  induction k with
  | zero => intro n h; omega
  | succ k ih =>
    intro n _ hn hn'
    cases k with
    | zero =>
      have := toNat_ofNat_lt (n := (n % 128).toNat) (by omega)
      simp only [sEnc, sleb, this, terminated_cons]
      simp at hn hn'
      refine ⟨.inl ⟨by omega, trivial⟩, ?_⟩
      split <;> omega
    | succ k =>
      have h128 := toNat_ofNat_lt (n := 128 + (n % 128).toNat) (by omega)
      have hp : (2 : Int) ^ (7 * (k + 1 + 1) - 1) = 2 ^ (7 * (k + 1) - 1) * 128 := by
        rw [← ipow_add7]; congr 1
      obtain ⟨h1, h2⟩ := ih (n := n / 128) (by omega) (by omega) (by omega)
      simp only [sEnc]
      rw [terminated_cons, sleb_cons (terminated_ne h1), h128, h2]
      exact ⟨.inr ⟨by omega, h1⟩, by omega⟩

theorem ofNat_eq {b : UInt8} {n : Nat} (h : b.toNat = n) : UInt8.ofNat n = b := by
  rw [← h]; simp

theorem uEnc_uleb : ∀ {bs : Bytes}, Terminated bs →
    bs = uEnc bs.length (uleb bs) ∧ uleb bs < 2 ^ (7 * bs.length) := by
  intro bs
  induction bs with
  | nil => intro h; exact absurd rfl (terminated_ne h)
  | cons b bs ih =>
    intro h
    have hb := b.toNat_lt
    rcases terminated_cons.1 h with ⟨h1, rfl⟩ | ⟨h1, h2⟩
    · simp only [List.length_cons, List.length_nil, uEnc, uleb]
      rw [ofNat_eq (b := b) (by omega)]
      exact ⟨rfl, by omega⟩
    · obtain ⟨k1, k2⟩ := ih h2
      obtain ⟨j, hj⟩ : ∃ j, bs.length = j + 1 :=
        ⟨bs.length - 1, by have := List.length_pos_iff.2 (terminated_ne h2); omega⟩
      have hp : 2 ^ (7 * (bs.length + 1)) = 2 ^ (7 * bs.length) * 128 := by
        rw [← pow_add7]; congr 1
      simp only [List.length_cons, uleb]
      refine ⟨?_, by omega⟩
      rw [hj] at k1 ⊢
      simp only [uEnc]
      rw [ofNat_eq (b := b) (by omega),
        show (b.toNat % 128 + 128 * uleb bs) / 128 = uleb bs by omega, ← k1]

theorem sEnc_sleb : ∀ {bs : Bytes}, Terminated bs →
    bs = sEnc bs.length (sleb bs) ∧ -2 ^ (7 * bs.length - 1) ≤ sleb bs ∧
      sleb bs < 2 ^ (7 * bs.length - 1) := by
  intro bs
  induction bs with
  | nil => intro h; exact absurd rfl (terminated_ne h)
  | cons b bs ih =>
    intro h
    have hb := b.toNat_lt
    rcases terminated_cons.1 h with ⟨h1, rfl⟩ | ⟨h1, h2⟩
    · simp only [List.length_cons, List.length_nil, sEnc, sleb]
      rw [ofNat_eq (b := b) (by split <;> omega)]
      refine ⟨rfl, ?_⟩
      simp
      split <;> omega
    · obtain ⟨k1, k2, k3⟩ := ih h2
      obtain ⟨j, hj⟩ : ∃ j, bs.length = j + 1 :=
        ⟨bs.length - 1, by have := List.length_pos_iff.2 (terminated_ne h2); omega⟩
      have hp : (2 : Int) ^ (7 * (bs.length + 1) - 1) = 2 ^ (7 * bs.length - 1) * 128 := by
        rw [← ipow_add7]; congr 1; omega
      rw [sleb_cons (terminated_ne h2)]
      simp only [List.length_cons]
      refine ⟨?_, by omega, by omega⟩
      rw [hj] at k1 ⊢
      simp only [sEnc]
      rw [ofNat_eq (b := b) (by omega),
        show ((b.toNat % 128 : Int) + 128 * sleb bs) / 128 = sleb bs by omega, ← k1]

/-- The encodings of an unsigned number are exactly its zero-padded encodings. -/
theorem BU_enc {N n : Nat} {bs : Bytes} (hN : 1 ≤ N) (hn : n < 2 ^ N) :
    BU N bs n ↔ ∃ k, 1 ≤ k ∧ 7 * (k - 1) < N ∧ n < 2 ^ (7 * k) ∧ bs = uEnc k n := by
  rw [BU_closed hN]
  constructor
  · rintro ⟨h1, h2, rfl, h4⟩
    obtain ⟨k1, k2⟩ := uEnc_uleb h1
    exact ⟨bs.length, List.length_pos_iff.2 (terminated_ne h1), h2, k2, k1⟩
  · rintro ⟨k, h1, h2, h3, rfl⟩
    obtain ⟨k1, k2⟩ := uEnc_spec h1 h3
    exact ⟨k1, by rw [uEnc_length]; exact h2, k2.symm, hn⟩

/-- The encodings of a signed number are exactly its sign-padded encodings. -/
theorem BS_enc {N : Nat} {n : Int} {bs : Bytes} (hN : 1 ≤ N) (hn : -2 ^ (N - 1) ≤ n)
    (hn' : n < 2 ^ (N - 1)) :
    BS N bs n ↔ ∃ k, 1 ≤ k ∧ 7 * (k - 1) < N ∧ -2 ^ (7 * k - 1) ≤ n ∧ n < 2 ^ (7 * k - 1) ∧
      bs = sEnc k n := by
  rw [BS_closed hN]
  constructor
  · rintro ⟨h1, h2, rfl, h4, h5⟩
    obtain ⟨k1, k2, k3⟩ := sEnc_sleb h1
    exact ⟨bs.length, List.length_pos_iff.2 (terminated_ne h1), h2, k2, k3, k1⟩
  · rintro ⟨k, h1, h2, h3, h4, rfl⟩
    obtain ⟨k1, k2⟩ := sEnc_spec h1 h3 h4
    exact ⟨k1, by rw [sEnc_length]; exact h2, k2.symm, hn, hn'⟩

end Wadec
