import Verif.Proof.Bits
import Verif.Proof.Calculus

/-! The five integer decoders implement the LEB128 grammar. -/

namespace Wadec

open LawfulRead Spec

section
variable {R S : Type} [LawfulRead R] [LawfulRead S]

/-! ### Unsigned -/

theorem pow_add7 (s : Nat) : 2 ^ (s + 7) = 2 ^ s * 128 := by rw [Nat.pow_add]

/-- Arithmetic of one accumulation step: `r + 2^s·(x mod 2^7) < 2^(s+7)`. -/
theorem step_lt {r s x : Nat} (hr : r < 2 ^ s) : r + 2 ^ s * (x % 128) < 2 ^ (s + 7) := by
  rw [pow_add7]
  have h2 : x % 128 < 128 := Nat.mod_lt _ (by decide)
  have h3 : 2 ^ s * (x % 128) + 2 ^ s ≤ 2 ^ s * 128 := by
    calc 2 ^ s * (x % 128) + 2 ^ s = 2 ^ s * (x % 128 + 1) := by rw [Nat.mul_add, Nat.mul_one]
      _ ≤ 2 ^ s * 128 := Nat.mul_le_mul_left _ (by omega)
  omega

theorem mod_pow_of_le {x k : Nat} (hk : 7 ≤ k) : (x % 128) % 2 ^ k = x % 128 := by
  apply Nat.mod_eq_of_lt
  have : 2 ^ 7 ≤ 2 ^ k := Nat.pow_le_pow_right (by decide) hk
  have : x % 128 < 128 := Nat.mod_lt _ (by decide)
  omega

theorem lin {r s x : Nat} {m : Nat} (hx : 128 ≤ x) (hx' : x < 256) :
    r + 2 ^ s * (x % 128) + 2 ^ (s + 7) * m = r + 2 ^ s * (2 ^ 7 * m + (x - 2 ^ 7)) := by
  have : x % 128 = x - 128 := by omega
  rw [pow_add7, this, Nat.mul_add, Nat.mul_assoc, Nat.add_assoc, Nat.add_comm (2 ^ s * (x - 128))]

theorem u32Loop_sound : ∀ (rem i : Nat) (res : BitVec 32) (s : Nat), i + rem = 6 → 1 ≤ i →
    s = 7 * (i - 1) → res.toNat < 2 ^ s →
    Sound (R := R) (decodeU32Loop rem i res s)
      (fun bs v => ∃ m, BU (32 - s) bs m ∧ v.toNat = res.toNat + 2 ^ s * m) := by
  intro rem
  induction rem with
  | zero => intros; exact Sound.err
  | succ rem ih =>
    intro i res s hi h1 hs hr
    simp only [decodeU32Loop]
    refine Sound.bind (Sound.mapErr Sound.readByte) ?_
    rintro b _ rfl
    have hstep := leb_step (w := 32) res b hr (by omega) (by decide)
    refine Sound.ite (fun _ => Sound.panic) fun _ => ?_
    refine Sound.ite (fun h80 => ?_) fun h80 => Sound.ite (fun _ => Sound.panic) fun _ => ?_
    · rw [and80] at h80
      refine Sound.ite (fun _ => Sound.err) fun hT => Sound.pure ?_
      rw [andF0 b h80] at hT
      refine ⟨b.toNat, BU.last (by omega) ?_, ?_⟩
      · by_cases hi5 : i = 5
        · have hh : 32 - s = 4 := by omega
          rw [hh]; omega
        · have : 2 ^ 7 ≤ 2 ^ (32 - s) := Nat.pow_le_pow_right (by decide) (by omega)
          omega
      · show (BitVec.toNat _) = _
        rw [hstep, Nat.mod_eq_of_lt h80]
        by_cases hi5 : i = 5
        · have hh : 32 - s = 4 := by omega
          rw [hh, Nat.mod_eq_of_lt (by omega)]
        · rw [← Nat.mod_eq_of_lt h80, mod_pow_of_le (by omega)]
    · rw [and80] at h80
      by_cases hrem : rem = 0
      · subst hrem; exact Sound.err
      rw [mod_pow_of_le (by omega)] at hstep
      refine Sound.mono (ih (i + 1) _ (s + 7) (by omega) (by omega) (by omega)
        (by rw [hstep]; exact step_lt hr)) ?_
      rintro bs v ⟨m, hm, hv⟩
      refine ⟨2 ^ 7 * m + (b.toNat - 2 ^ 7), BU.more (by omega) (by omega) ?_, ?_⟩
      · rw [Nat.sub_sub]; exact hm
      · rw [hv, hstep, lin (by omega) (UInt8.toNat_lt b)]

theorem u32Loop_runs : ∀ (rem i : Nat) (res : BitVec 32) (s : Nat), i + rem = 6 → 1 ≤ i →
    1 ≤ rem → s = 7 * (i - 1) → res.toNat < 2 ^ s → ∀ bs m v, BU (32 - s) bs m →
    v.toNat = res.toNat + 2 ^ s * m → Runs (R := R) (decodeU32Loop rem i res s) bs v := by
  intro rem
  induction rem with
  | zero => intros; omega
  | succ rem ih =>
    intro i res s hi h1 hrem hs hr bs m v hB hv
    simp only [decodeU32Loop]
    cases hB with
    | @last _ b hb hb' =>
      have hstep := leb_step (w := 32) res b hr (by omega) (by decide)
      refine Runs.bind (b1 := [b]) (b2 := []) (Runs.mapErr Runs.readByte) ?_
      refine Runs.ite_neg (by omega) (Runs.ite_pos ((and80 b).2 hb) (Runs.ite_neg ?_ ?_))
      · rintro ⟨hi5, h⟩
        rw [andF0 b hb] at h
        have hh : 32 - s = 4 := by omega
        rw [hh] at hb'; omega
      · have : v = UInt32.ofBitVec (res ||| ((b &&& 0x7F).toBitVec.setWidth 32 <<< s)) := by
          apply UInt32.toNat_inj.mp
          show _ = BitVec.toNat _
          rw [hstep, hv, Nat.mod_eq_of_lt hb, Nat.mod_eq_of_lt hb']
        rw [this]
        exact Runs.pure
    | @more _ b bs m hb hN hB =>
      have hstep := leb_step (w := 32) res b hr (by omega) (by decide)
      rw [mod_pow_of_le (by omega)] at hstep
      refine Runs.bind (b1 := [b]) (Runs.mapErr Runs.readByte) ?_
      refine Runs.ite_neg (by omega) (Runs.ite_neg (by rw [and80]; omega) (Runs.ite_neg (by omega) ?_))
      refine ih (i + 1) _ (s + 7) (by omega) (by omega) (by omega) (by omega)
        (by rw [hstep]; exact step_lt hr) bs m v (by rw [← Nat.sub_sub]; exact hB) ?_
      rw [hv, hstep, lin (by omega) (UInt8.toNat_lt b)]

theorem u32Loop_g : ∀ (rem i : Nat) (res : BitVec 32) (s L : Nat), i + rem = 6 → 1 ≤ i →
    s = 7 * (i - 1) →
    G 1 L (decodeU32Loop rem i res s : Dec R _ _) (decodeU32Loop rem i res s : Dec S _ _) := by
  intro rem
  induction rem with
  | zero => intros; exact G.err
  | succ rem ih =>
    intro i res s L hi h1 hs
    simp only [decodeU32Loop]
    refine G.bind (j := 0) (G.mapErr G.readByte (fun _ => rfl) (fun _ => id)) (fun b => ?_) (by omega)
    refine G.ite (fun h => by omega) fun _ => ?_
    refine G.ite (fun _ => G.ite (fun _ => G.err) fun _ => G.pure) fun _ => ?_
    exact G.ite (fun h => by omega) fun _ =>
      G.mono (ih (i + 1) _ (s + 7) _ (by omega) (by omega) (by omega)) (by omega)

theorem decodeU32_sound : Sound (R := R) decodeU32 BU32 :=
  Sound.mono (u32Loop_sound 5 1 0 0 rfl (by omega) rfl (by decide)) (by
    rintro bs v ⟨m, hm, hv⟩
    simp at hv hm
    unfold BU32; rw [hv]; exact hm)

theorem decodeU32_runs {bs : List UInt8} {v : UInt32} (h : BU32 bs v) :
    Runs (R := R) decodeU32 bs v :=
  u32Loop_runs 5 1 0 0 rfl (by omega) (by omega) rfl (by decide) bs v.toNat v h (by simp)

theorem decodeU32_g {L : Nat} : G 1 L (decodeU32 : Dec R _ _) (decodeU32 : Dec S _ _) :=
  u32Loop_g 5 1 0 0 L rfl (by omega) rfl

/-! ### u64 -/

theorem u64Loop_sound : ∀ (rem i : Nat) (res : BitVec 64) (s : Nat), i + rem = 11 → 1 ≤ i →
    s = 7 * (i - 1) → res.toNat < 2 ^ s →
    Sound (R := R) (decodeU64Loop rem i res s)
      (fun bs v => ∃ m, BU (64 - s) bs m ∧ v.toNat = res.toNat + 2 ^ s * m) := by
  intro rem
  induction rem with
  | zero => intros; exact Sound.err
  | succ rem ih =>
    intro i res s hi h1 hs hr
    simp only [decodeU64Loop]
    refine Sound.bind (Sound.mapErr Sound.readByte) ?_
    rintro b _ rfl
    have hstep := leb_step (w := 64) res b hr (by omega) (by decide)
    refine Sound.ite (fun _ => Sound.panic) fun _ => ?_
    refine Sound.ite (fun h80 => ?_) fun h80 => Sound.ite (fun _ => Sound.panic) fun _ => ?_
    · rw [and80] at h80
      refine Sound.ite (fun _ => Sound.err) fun hT => Sound.pure ?_
      rw [and7E b h80] at hT
      refine ⟨b.toNat, BU.last (by omega) ?_, ?_⟩
      · by_cases hi5 : i = 10
        · have hh : 64 - s = 1 := by omega
          rw [hh]; omega
        · have : 2 ^ 7 ≤ 2 ^ (64 - s) := Nat.pow_le_pow_right (by decide) (by omega)
          omega
      · show (BitVec.toNat _) = _
        rw [hstep, Nat.mod_eq_of_lt h80]
        by_cases hi5 : i = 10
        · have hh : 64 - s = 1 := by omega
          rw [hh, Nat.mod_eq_of_lt (by omega)]
        · rw [← Nat.mod_eq_of_lt h80, mod_pow_of_le (by omega)]
    · rw [and80] at h80
      by_cases hrem : rem = 0
      · subst hrem; exact Sound.err
      rw [mod_pow_of_le (by omega)] at hstep
      refine Sound.mono (ih (i + 1) _ (s + 7) (by omega) (by omega) (by omega)
        (by rw [hstep]; exact step_lt hr)) ?_
      rintro bs v ⟨m, hm, hv⟩
      refine ⟨2 ^ 7 * m + (b.toNat - 2 ^ 7), BU.more (by omega) (by omega) ?_, ?_⟩
      · rw [Nat.sub_sub]; exact hm
      · rw [hv, hstep, lin (by omega) (UInt8.toNat_lt b)]

theorem u64Loop_runs : ∀ (rem i : Nat) (res : BitVec 64) (s : Nat), i + rem = 11 → 1 ≤ i →
    1 ≤ rem → s = 7 * (i - 1) → res.toNat < 2 ^ s → ∀ bs m v, BU (64 - s) bs m →
    v.toNat = res.toNat + 2 ^ s * m → Runs (R := R) (decodeU64Loop rem i res s) bs v := by
  intro rem
  induction rem with
  | zero => intros; omega
  | succ rem ih =>
    intro i res s hi h1 hrem hs hr bs m v hB hv
    simp only [decodeU64Loop]
    cases hB with
    | @last _ b hb hb' =>
      have hstep := leb_step (w := 64) res b hr (by omega) (by decide)
      refine Runs.bind (b1 := [b]) (b2 := []) (Runs.mapErr Runs.readByte) ?_
      refine Runs.ite_neg (by omega) (Runs.ite_pos ((and80 b).2 hb) (Runs.ite_neg ?_ ?_))
      · rintro ⟨hi5, h⟩
        rw [and7E b hb] at h
        have hh : 64 - s = 1 := by omega
        rw [hh] at hb'; omega
      · have : v = UInt64.ofBitVec (res ||| ((b &&& 0x7F).toBitVec.setWidth 64 <<< s)) := by
          apply UInt64.toNat_inj.mp
          show _ = BitVec.toNat _
          rw [hstep, hv, Nat.mod_eq_of_lt hb, Nat.mod_eq_of_lt hb']
        rw [this]
        exact Runs.pure
    | @more _ b bs m hb hN hB =>
      have hstep := leb_step (w := 64) res b hr (by omega) (by decide)
      rw [mod_pow_of_le (by omega)] at hstep
      refine Runs.bind (b1 := [b]) (Runs.mapErr Runs.readByte) ?_
      refine Runs.ite_neg (by omega) (Runs.ite_neg (by rw [and80]; omega) (Runs.ite_neg (by omega) ?_))
      refine ih (i + 1) _ (s + 7) (by omega) (by omega) (by omega) (by omega)
        (by rw [hstep]; exact step_lt hr) bs m v (by rw [← Nat.sub_sub]; exact hB) ?_
      rw [hv, hstep, lin (by omega) (UInt8.toNat_lt b)]

theorem u64Loop_g : ∀ (rem i : Nat) (res : BitVec 64) (s L : Nat), i + rem = 11 → 1 ≤ i →
    s = 7 * (i - 1) →
    G 1 L (decodeU64Loop rem i res s : Dec R _ _) (decodeU64Loop rem i res s : Dec S _ _) := by
  intro rem
  induction rem with
  | zero => intros; exact G.err
  | succ rem ih =>
    intro i res s L hi h1 hs
    simp only [decodeU64Loop]
    refine G.bind (j := 0) (G.mapErr G.readByte (fun _ => rfl) (fun _ => id)) (fun b => ?_) (by omega)
    refine G.ite (fun h => by omega) fun _ => ?_
    refine G.ite (fun _ => G.ite (fun _ => G.err) fun _ => G.pure) fun _ => ?_
    exact G.ite (fun h => by omega) fun _ =>
      G.mono (ih (i + 1) _ (s + 7) _ (by omega) (by omega) (by omega)) (by omega)

theorem decodeU64_sound : Sound (R := R) decodeU64 BU64 :=
  Sound.mono (u64Loop_sound 10 1 0 0 rfl (by omega) rfl (by decide)) (by
    rintro bs v ⟨m, hm, hv⟩
    simp at hv hm
    unfold BU64; rw [hv]; exact hm)

theorem decodeU64_runs {bs : List UInt8} {v : UInt64} (h : BU64 bs v) :
    Runs (R := R) decodeU64 bs v :=
  u64Loop_runs 10 1 0 0 rfl (by omega) (by omega) rfl (by decide) bs v.toNat v h (by simp)

theorem decodeU64_g {L : Nat} : G 1 L (decodeU64 : Dec R _ _) (decodeU64 : Dec S _ _) :=
  u64Loop_g 10 1 0 0 L rfl (by omega) rfl

/-! ### Signed -/

/-- The value of the last byte of a signed LEB128 number. -/
def lastVal (b : UInt8) : Int := if 64 ≤ b.toNat then (b.toNat : Int) - 128 else b.toNat

theorem BS.lastVal {N : Nat} {b : UInt8} (hb : b.toNat < 128) (h1 : -2 ^ (N - 1) ≤ lastVal b)
    (h2 : lastVal b < 2 ^ (N - 1)) : BS N [b] (lastVal b) := by
  unfold Wadec.lastVal at *
  split at h1
  · rename_i h
    rw [if_pos h]
    exact BS.neg (by omega) (by omega) (by omega)
  · rename_i h
    rw [if_neg h] at *
    exact BS.pos (by omega) (by exact_mod_cast h2)

theorem BS.cases_last {N : Nat} {bs : Bytes} {v : Int} (h : BS N bs v) :
    (∃ b, bs = [b] ∧ b.toNat < 128 ∧ v = Wadec.lastVal b ∧ -2 ^ (N - 1) ≤ v ∧ v < 2 ^ (N - 1)) ∨
    (∃ b t m, bs = b :: t ∧ 128 ≤ b.toNat ∧ 7 < N ∧ BS (N - 7) t m ∧
      v = 2 ^ 7 * m + ((b.toNat : Int) - 2 ^ 7)) := by
  have hp : (0 : Int) < 2 ^ (N - 1) := by exact_mod_cast Nat.two_pow_pos _
  cases h with
  | @pos _ b h1 h2 =>
    have h3 : ((b.toNat : Int)) < 2 ^ (N - 1) := by exact_mod_cast h2
    exact .inl ⟨b, rfl, by omega, by unfold Wadec.lastVal; rw [if_neg (by omega)], by omega, h3⟩
  | @neg _ b h1 h2 h3 =>
    exact .inl ⟨b, rfl, by omega, by unfold Wadec.lastVal; rw [if_pos (by omega)]; rfl, by omega, by omega⟩
  | @more _ b t m h1 h2 h3 => exact .inr ⟨b, t, m, rfl, by omega, h2, h3, rfl⟩

theorem ipow_add7 (s : Nat) : (2 : Int) ^ (s + 7) = 2 ^ s * 128 := by
  have := pow_add7 s
  exact_mod_cast this

theorem ilin {r x : Nat} {s : Nat} {m : Int} (hx : 128 ≤ x) (hx' : x < 256) :
    ((r + 2 ^ s * (x % 128) : Nat) : Int) + 2 ^ (s + 7) * m =
      r + 2 ^ s * (2 ^ 7 * m + ((x : Int) - 2 ^ 7)) := by
  have : x % 128 = x - 128 := by omega
  rw [this, ipow_add7]
  have h : ((x - 128 : Nat) : Int) = (x : Int) - 2 ^ 7 := by omega
  push_cast
  rw [h, Int.mul_add, Int.mul_assoc, Int.add_assoc, Int.add_comm (2 ^ s * ((x : Int) - 2 ^ 7))]
  rfl

/-- The value after the last byte, sign extended. -/
theorem leb_neg {s : Nat} (res : BitVec 64) (b : UInt8) (hr : res.toNat < 2 ^ s) (hs : s + 7 < 64)
    (hb : b.toNat < 128) (h64 : 64 ≤ b.toNat) :
    ((res ||| ((b &&& 0x7F).toBitVec.setWidth 64 <<< s)) ||| (BitVec.allOnes 64 <<< (s + 7))).toInt =
      res.toNat + 2 ^ s * lastVal b := by
  have hstep := leb_step (w := 64) res b hr (by omega) (by decide)
  rw [mod_pow_of_le (by omega)] at hstep
  rw [sext_toInt _ (by rw [hstep]; exact step_lt hr) hs, hstep, Nat.mod_eq_of_lt hb, ipow_add7]
  unfold lastVal
  rw [if_pos h64, Int.mul_sub]
  push_cast
  omega

theorem leb_pos {s : Nat} (res : BitVec 64) (b : UInt8) (hr : res.toNat < 2 ^ s) (hs : s + 7 < 64)
    (hb : b.toNat < 128) (h64 : ¬ 64 ≤ b.toNat) :
    (res ||| ((b &&& 0x7F).toBitVec.setWidth 64 <<< s)).toInt = res.toNat + 2 ^ s * lastVal b := by
  have hstep := leb_step (w := 64) res b hr (by omega) (by decide)
  rw [mod_pow_of_le (by omega)] at hstep
  have hlt := step_lt (x := b.toNat) hr
  have : 2 ^ (s + 7) ≤ 2 ^ 63 := Nat.pow_le_pow_right (by decide) (by omega)
  rw [toInt_of_lt _ (by omega), hstep, Nat.mod_eq_of_lt hb]
  unfold lastVal
  rw [if_neg h64]
  push_cast
  rfl

/-- A last byte with room to spare is always in range. -/
theorem lastVal_range {b : UInt8} {k : Nat} (hb : b.toNat < 128) (hk : 7 ≤ k) :
    -2 ^ (k - 1) ≤ lastVal b ∧ lastVal b < 2 ^ (k - 1) := by
  have h : 2 ^ 6 ≤ 2 ^ (k - 1) := Nat.pow_le_pow_right (by decide) (by omega)
  have h' : (2 ^ 6 : Int) ≤ 2 ^ (k - 1) := by exact_mod_cast h
  unfold lastVal
  split <;> omega

/-! ### s33 -/

theorem s33Loop_sound : ∀ (rem : Nat) (res : BitVec 64) (s : Nat), rem ≤ 5 →
    s = 7 * (5 - rem) → res.toNat < 2 ^ s →
    Sound (R := R) (decodeS33Loop rem res s)
      (fun bs v => ∃ m, BS (33 - s) bs m ∧ v.toInt = res.toNat + 2 ^ s * m) := by
  intro rem
  induction rem with
  | zero => intros; exact Sound.err
  | succ rem ih =>
    intro res s hrem hs hr
    simp only [decodeS33Loop]
    refine Sound.bind (Sound.mapErr Sound.readByte) ?_
    rintro b _ rfl
    refine Sound.ite (fun _ => Sound.panic) fun _ => Sound.ite (fun _ => Sound.panic) fun _ => ?_
    refine Sound.ite (fun h80 => ?_) fun h80 => ?_
    · rw [and80] at h80
      refine Sound.ite (fun _ => Sound.err) fun hE1 => Sound.ite (fun _ => Sound.err) fun hE2 => ?_
      refine Sound.ite (fun h40 => Sound.ite (fun _ => Sound.panic) fun _ => Sound.pure ?_)
        fun h40 => Sound.pure ?_
      · have h64 := (and40 b h80).1 h40
        refine ⟨lastVal b, ?_, leb_neg res b hr (by omega) h80 h64⟩
        by_cases h28 : s = 28
        · refine BS.lastVal h80 ?_ ?_
          all_goals
            subst h28
            have h112 : ¬ (b &&& 0x70 ≠ 0x70) := fun h => hE1 ⟨by omega, h40, h⟩
            rw [and70 b h80 h64] at h112
            unfold lastVal
            rw [if_pos h64]
            omega
        · have := lastVal_range (b := b) (k := 33 - s) h80 (by omega)
          exact BS.lastVal h80 this.1 this.2
      · have h64 : ¬ 64 ≤ b.toNat := fun h => h40 ((and40 b h80).2 h)
        refine ⟨lastVal b, ?_, leb_pos res b hr (by omega) h80 h64⟩
        by_cases h28 : s = 28
        · refine BS.lastVal h80 ?_ ?_
          all_goals
            subst h28
            have h16 : ¬ (b &&& 0x70 ≠ 0x00) := fun h => hE2 ⟨by omega, h40, h⟩
            rw [and700 b (by omega)] at h16
            unfold lastVal
            rw [if_neg h64]
            omega
        · have := lastVal_range (b := b) (k := 33 - s) h80 (by omega)
          exact BS.lastVal h80 this.1 this.2
    · rw [and80] at h80
      by_cases hrem0 : rem = 0
      · subst hrem0; exact Sound.err
      have hstep := leb_step (w := 64) res b hr (by omega) (by decide)
      rw [mod_pow_of_le (by omega)] at hstep
      refine Sound.mono (ih _ (s + 7) (by omega) (by omega)
        (by rw [hstep]; exact step_lt hr)) ?_
      rintro bs v ⟨m, hm, hv⟩
      refine ⟨2 ^ 7 * m + ((b.toNat : Int) - 2 ^ 7), BS.more (by omega) (by omega) ?_, ?_⟩
      · rw [Nat.sub_sub]; exact hm
      · rw [hv, hstep, ilin (by omega) (UInt8.toNat_lt b)]

theorem s33Loop_runs : ∀ (rem : Nat) (res : BitVec 64) (s : Nat), rem ≤ 5 → 1 ≤ rem →
    s = 7 * (5 - rem) → res.toNat < 2 ^ s → ∀ bs m v, BS (33 - s) bs m →
    v.toInt = res.toNat + 2 ^ s * m → Runs (R := R) (decodeS33Loop rem res s) bs v := by
  intro rem
  induction rem with
  | zero => intros; omega
  | succ rem ih =>
    intro res s hrem _ hs hr bs m v hB hv
    simp only [decodeS33Loop]
    rcases BS.cases_last hB with ⟨b, rfl, hb, rfl, hlo, hhi⟩ | ⟨b, t, m', rfl, hb, hN, hB', rfl⟩
    · refine Runs.bind (b1 := [b]) (b2 := []) (Runs.mapErr Runs.readByte) ?_
      refine Runs.ite_neg (by omega) (Runs.ite_neg (by omega) (Runs.ite_pos ((and80 b).2 hb) ?_))
      by_cases h64 : 64 ≤ b.toNat
      · have h40 := (and40 b hb).2 h64
        refine Runs.ite_neg ?_ (Runs.ite_neg (fun h => h.2.1 h40) (Runs.ite_pos h40
          (Runs.ite_neg (by omega) ?_)))
        · rintro ⟨h33, _, h⟩
          rw [and70 b hb h64] at h
          have h28 : s = 28 := by omega
          subst h28
          unfold lastVal at hlo
          rw [if_pos h64] at hlo
          omega
        · rw [← leb_neg res b hr (by omega) hb h64] at hv
          rw [show v = Int64.ofBitVec _ from Int64.toInt_inj.mp hv]
          exact Runs.pure
      · have h40 : ¬ (b &&& 0x40 ≠ 0) := fun h => h64 ((and40 b hb).1 h)
        refine Runs.ite_neg (fun h => h40 h.2.1) (Runs.ite_neg ?_ (Runs.ite_neg h40 ?_))
        · rintro ⟨h33, _, h⟩
          rw [and700 b (by omega)] at h
          have h28 : s = 28 := by omega
          subst h28
          unfold lastVal at hhi
          rw [if_neg h64] at hhi
          omega
        · rw [← leb_pos res b hr (by omega) hb h64] at hv
          rw [show v = Int64.ofBitVec _ from Int64.toInt_inj.mp hv]
          exact Runs.pure
    · have hstep := leb_step (w := 64) res b hr (by omega) (by decide)
      rw [mod_pow_of_le (by omega)] at hstep
      refine Runs.bind (b1 := [b]) (Runs.mapErr Runs.readByte) ?_
      refine Runs.ite_neg (by omega) (Runs.ite_neg (by omega) (Runs.ite_neg (by rw [and80]; omega) ?_))
      refine ih _ (s + 7) (by omega) (by omega) (by omega)
        (by rw [hstep]; exact step_lt hr) t m' v (by rw [← Nat.sub_sub]; exact hB') ?_
      rw [hv, hstep, ilin (by omega) (UInt8.toNat_lt b)]

theorem s33Loop_g : ∀ (rem : Nat) (res : BitVec 64) (s L : Nat), rem ≤ 5 →
    s = 7 * (5 - rem) →
    G 1 L (decodeS33Loop rem res s : Dec R _ _) (decodeS33Loop rem res s : Dec S _ _) := by
  intro rem
  induction rem with
  | zero => intros; exact G.err
  | succ rem ih =>
    intro res s L hrem hs
    simp only [decodeS33Loop]
    refine G.bind (j := 0) (G.mapErr G.readByte (fun _ => rfl) (fun _ => id)) (fun b => ?_) (by omega)
    refine G.ite (fun h => by omega) fun _ => G.ite (fun h => by omega) fun _ => ?_
    refine G.ite (fun _ => ?_) fun _ => G.mono (ih _ (s + 7) _ (by omega) (by omega)) (by omega)
    refine G.ite (fun _ => G.err) fun _ => G.ite (fun _ => G.err) fun _ => ?_
    exact G.ite (fun _ => G.ite (fun h => by omega) fun _ => G.pure) fun _ => G.pure

theorem decodeS33_sound : Sound (R := R) decodeS33 BS33 :=
  Sound.mono (s33Loop_sound 5 0 0 (by omega) rfl (by decide)) (by
    rintro bs v ⟨m, hm, hv⟩
    simp at hv hm
    unfold BS33; rw [hv]; exact hm)

theorem decodeS33_runs {bs : List UInt8} {v : Int64} (h : BS33 bs v) :
    Runs (R := R) decodeS33 bs v :=
  s33Loop_runs 5 0 0 (by omega) (by omega) rfl (by decide) bs v.toInt v h (by simp)

theorem decodeS33_g {L : Nat} : G 1 L (decodeS33 : Dec R _ _) (decodeS33 : Dec S _ _) :=
  s33Loop_g 5 0 0 L (by omega) rfl

/-! ### i32 -/

theorem i32Loop_sound : ∀ (rem : Nat) (res : BitVec 64) (s : Nat), rem ≤ 5 →
    s = 7 * (5 - rem) → res.toNat < 2 ^ s →
    Sound (R := R) (decodeI32Loop rem res s)
      (fun bs v => ∃ m, BS (32 - s) bs m ∧ v.toInt = res.toNat + 2 ^ s * m) := by
  intro rem
  induction rem with
  | zero => intros; exact Sound.err
  | succ rem ih =>
    intro res s hrem hs hr
    simp only [decodeI32Loop]
    refine Sound.bind (Sound.mapErr Sound.readByte) ?_
    rintro b _ rfl
    refine Sound.ite (fun _ => Sound.panic) fun _ => Sound.ite (fun _ => Sound.panic) fun _ => ?_
    refine Sound.ite (fun h80 => ?_) fun h80 => ?_
    · rw [and80] at h80
      refine Sound.ite (fun _ => Sound.panic) fun _ => ?_
      have hval : ((if b &&& 0x40 ≠ 0 then
          (res ||| ((b &&& 0x7F).toBitVec.setWidth 64 <<< s)) ||| (BitVec.allOnes 64 <<< (s + 7))
          else (res ||| ((b &&& 0x7F).toBitVec.setWidth 64 <<< s)))).toInt =
          res.toNat + 2 ^ s * lastVal b := by
        by_cases h64 : 64 ≤ b.toNat
        · rw [if_pos ((and40 b h80).2 h64)]
          exact leb_neg res b hr (by omega) h80 h64
        · rw [if_neg (fun h => h64 ((and40 b h80).1 h))]
          exact leb_pos res b hr (by omega) h80 h64
      refine Sound.ite (fun _ => Sound.err) fun hR => Sound.ite (fun _ => Sound.pure ?_)
        fun _ => Sound.panic
      rw [hval] at hR ⊢
      simp only [Decidable.not_not] at hR
      refine ⟨lastVal b, ?_, Int32.toInt_ofInt_of_le (by simpa using hR.1) (by simpa using by omega)⟩
      by_cases h28 : s = 28
      · subst h28
        refine BS.lastVal h80 ?_ ?_ <;> simp at hr ⊢ <;> omega
      · have := lastVal_range (b := b) (k := 32 - s) h80 (by omega)
        exact BS.lastVal h80 this.1 this.2
    · rw [and80] at h80
      by_cases hrem0 : rem = 0
      · subst hrem0; exact Sound.err
      have hstep := leb_step (w := 64) res b hr (by omega) (by decide)
      rw [mod_pow_of_le (by omega)] at hstep
      refine Sound.mono (ih _ (s + 7) (by omega) (by omega)
        (by rw [hstep]; exact step_lt hr)) ?_
      rintro bs v ⟨m, hm, hv⟩
      refine ⟨2 ^ 7 * m + ((b.toNat : Int) - 2 ^ 7), BS.more (by omega) (by omega) ?_, ?_⟩
      · rw [Nat.sub_sub]; exact hm
      · rw [hv, hstep, ilin (by omega) (UInt8.toNat_lt b)]

theorem i32Loop_runs : ∀ (rem : Nat) (res : BitVec 64) (s : Nat), rem ≤ 5 → 1 ≤ rem →
    s = 7 * (5 - rem) → res.toNat < 2 ^ s → ∀ bs m (v : Int32), BS (32 - s) bs m →
    v.toInt = res.toNat + 2 ^ s * m → Runs (R := R) (decodeI32Loop rem res s) bs v := by
  intro rem
  induction rem with
  | zero => intros; omega
  | succ rem ih =>
    intro res s hrem _ hs hr bs m v hB hv
    simp only [decodeI32Loop]
    rcases BS.cases_last hB with ⟨b, rfl, hb, rfl, hlo, hhi⟩ | ⟨b, t, m', rfl, hb, hN, hB', rfl⟩
    · refine Runs.bind (b1 := [b]) (b2 := []) (Runs.mapErr Runs.readByte) ?_
      refine Runs.ite_neg (by omega) (Runs.ite_neg (by omega) (Runs.ite_pos ((and80 b).2 hb)
        (Runs.ite_neg (by omega) ?_)))
      have hval : ((if b &&& 0x40 ≠ 0 then
          (res ||| ((b &&& 0x7F).toBitVec.setWidth 64 <<< s)) ||| (BitVec.allOnes 64 <<< (s + 7))
          else (res ||| ((b &&& 0x7F).toBitVec.setWidth 64 <<< s)))).toInt =
          v.toInt := by
        by_cases h64 : 64 ≤ b.toNat
        · rw [if_pos ((and40 b hb).2 h64), hv]
          exact leb_neg res b hr (by omega) hb h64
        · rw [if_neg (fun h => h64 ((and40 b hb).1 h)), hv]
          exact leb_pos res b hr (by omega) hb h64
      have h1 := Int32.le_toInt v
      have h2 := Int32.toInt_lt v
      rw [hval]
      refine Runs.ite_neg (by omega) (Runs.ite_pos (by omega) ?_)
      rw [Int32.ofInt_toInt]
      exact Runs.pure
    · have hstep := leb_step (w := 64) res b hr (by omega) (by decide)
      rw [mod_pow_of_le (by omega)] at hstep
      refine Runs.bind (b1 := [b]) (Runs.mapErr Runs.readByte) ?_
      refine Runs.ite_neg (by omega) (Runs.ite_neg (by omega) (Runs.ite_neg (by rw [and80]; omega) ?_))
      refine ih _ (s + 7) (by omega) (by omega) (by omega)
        (by rw [hstep]; exact step_lt hr) t m' v (by rw [← Nat.sub_sub]; exact hB') ?_
      rw [hv, hstep, ilin (by omega) (UInt8.toNat_lt b)]

theorem i32Loop_g : ∀ (rem : Nat) (res : BitVec 64) (s L : Nat), rem ≤ 5 →
    s = 7 * (5 - rem) →
    G 1 L (decodeI32Loop rem res s : Dec R _ _) (decodeI32Loop rem res s : Dec S _ _) := by
  intro rem
  induction rem with
  | zero => intros; exact G.err
  | succ rem ih =>
    intro res s L hrem hs
    simp only [decodeI32Loop]
    refine G.bind (j := 0) (G.mapErr G.readByte (fun _ => rfl) (fun _ => id)) (fun b => ?_) (by omega)
    refine G.ite (fun h => by omega) fun _ => G.ite (fun h => by omega) fun _ => ?_
    refine G.ite (fun _ => ?_) fun _ => G.mono (ih _ (s + 7) _ (by omega) (by omega)) (by omega)
    refine G.ite (fun h => by omega) fun _ => ?_
    exact G.ite (fun _ => G.err) fun h => G.ite (fun _ => G.pure) fun h' => absurd h' h

theorem decodeI32_sound : Sound (R := R) decodeI32 BI32 :=
  Sound.mono (i32Loop_sound 5 0 0 (by omega) rfl (by decide)) (by
    rintro bs v ⟨m, hm, hv⟩
    simp at hv hm
    unfold BI32; rw [hv]; exact hm)

theorem decodeI32_runs {bs : List UInt8} {v : Int32} (h : BI32 bs v) :
    Runs (R := R) decodeI32 bs v :=
  i32Loop_runs 5 0 0 (by omega) (by omega) rfl (by decide) bs v.toInt v h (by simp)

theorem decodeI32_g {L : Nat} : G 1 L (decodeI32 : Dec R _ _) (decodeI32 : Dec S _ _) :=
  i32Loop_g 5 0 0 L (by omega) rfl

/-! ### i64 -/

/-- The tenth byte of an `i64`. -/
theorem leb_63 (res : BitVec 64) (b : UInt8) (hr : res.toNat < 2 ^ 63)
    (hb : b.toNat = 0 ∨ b.toNat = 127) :
    (res ||| ((b &&& 0x7F).toBitVec.setWidth 64 <<< 63)).toInt = res.toNat + 2 ^ 63 * lastVal b := by
  have hstep := leb_step (w := 64) (s := 63) res b hr (by omega) (by decide)
  unfold lastVal
  rcases hb with hb | hb
  · simp only [hb] at hstep ⊢
    rw [toInt_of_lt _ (by rw [hstep]; simpa using hr), hstep]
    simp
  · simp only [hb] at hstep ⊢
    rw [toInt_of_ge _ (by rw [hstep]; simp), hstep]
    simp
    omega

theorem i64Loop_sound : ∀ (rem : Nat) (res : BitVec 64) (s : Nat), rem ≤ 10 →
    s = 7 * (10 - rem) → res.toNat < 2 ^ s →
    Sound (R := R) (decodeI64Loop rem res s)
      (fun bs v => ∃ m, BS (64 - s) bs m ∧ v.toInt = res.toNat + 2 ^ s * m) := by
  intro rem
  induction rem with
  | zero => intros; exact Sound.err
  | succ rem ih =>
    intro res s hrem hs hr
    simp only [decodeI64Loop]
    refine Sound.bind (Sound.mapErr Sound.readByte) ?_
    rintro b _ rfl
    refine Sound.ite (fun _ => Sound.panic) fun _ => Sound.ite (fun _ => Sound.panic) fun _ => ?_
    refine Sound.ite (fun h80 => ?_) fun h80 => ?_
    · rw [and80] at h80
      refine Sound.ite (fun h70 => ?_) fun h70 => Sound.ite (fun h40 => Sound.pure ?_)
        fun h40 => Sound.pure ?_
      · have h63 : s = 63 := by omega
        subst h63
        refine Sound.ite (fun _ => Sound.err) fun hE1 => Sound.ite (fun _ => Sound.err) fun hE2 =>
          Sound.pure ?_
        have hb : b.toNat = 0 ∨ b.toNat = 127 := by
          by_cases h64 : 64 ≤ b.toNat
          · have h40 := (and40 b h80).2 h64
            have h : ¬ (b &&& 0x3F ≠ 0x3F) := fun h => hE1 ⟨h40, h⟩
            rw [and3F b h80 h64] at h
            omega
          · have h40 : ¬ (b &&& 0x40 ≠ 0) := fun h => h64 ((and40 b h80).1 h)
            have h : ¬ (b &&& 0x3F ≠ 0x00) := fun h => hE2 ⟨h40, h⟩
            rw [and3F0 b (by omega)] at h
            omega
        refine ⟨lastVal b, BS.lastVal h80 ?_ ?_, leb_63 res b hr hb⟩ <;>
          · unfold lastVal
            rcases hb with hb | hb <;> simp [hb]
      · have h64 := (and40 b h80).1 h40
        refine ⟨lastVal b, ?_, leb_neg res b hr (by omega) h80 h64⟩
        have := lastVal_range (b := b) (k := 64 - s) h80 (by omega)
        exact BS.lastVal h80 this.1 this.2
      · have h64 : ¬ 64 ≤ b.toNat := fun h => h40 ((and40 b h80).2 h)
        refine ⟨lastVal b, ?_, leb_pos res b hr (by omega) h80 h64⟩
        have := lastVal_range (b := b) (k := 64 - s) h80 (by omega)
        exact BS.lastVal h80 this.1 this.2
    · rw [and80] at h80
      by_cases hrem0 : rem = 0
      · subst hrem0; exact Sound.err
      have hstep := leb_step (w := 64) res b hr (by omega) (by decide)
      rw [mod_pow_of_le (by omega)] at hstep
      refine Sound.mono (ih _ (s + 7) (by omega) (by omega)
        (by rw [hstep]; exact step_lt hr)) ?_
      rintro bs v ⟨m, hm, hv⟩
      refine ⟨2 ^ 7 * m + ((b.toNat : Int) - 2 ^ 7), BS.more (by omega) (by omega) ?_, ?_⟩
      · rw [Nat.sub_sub]; exact hm
      · rw [hv, hstep, ilin (by omega) (UInt8.toNat_lt b)]

theorem i64Loop_runs : ∀ (rem : Nat) (res : BitVec 64) (s : Nat), rem ≤ 10 → 1 ≤ rem →
    s = 7 * (10 - rem) → res.toNat < 2 ^ s → ∀ bs m v, BS (64 - s) bs m →
    v.toInt = res.toNat + 2 ^ s * m → Runs (R := R) (decodeI64Loop rem res s) bs v := by
  intro rem
  induction rem with
  | zero => intros; omega
  | succ rem ih =>
    intro res s hrem _ hs hr bs m v hB hv
    simp only [decodeI64Loop]
    rcases BS.cases_last hB with ⟨b, rfl, hb, rfl, hlo, hhi⟩ | ⟨b, t, m', rfl, hb, hN, hB', rfl⟩
    · refine Runs.bind (b1 := [b]) (b2 := []) (Runs.mapErr Runs.readByte) ?_
      refine Runs.ite_neg (by omega) (Runs.ite_neg (by omega) (Runs.ite_pos ((and80 b).2 hb) ?_))
      by_cases h63 : s = 63
      · subst h63
        refine Runs.ite_pos (by omega) ?_
        by_cases h64 : 64 ≤ b.toNat
        · have h40 := (and40 b hb).2 h64
          have hb' : b.toNat = 127 := by
            unfold lastVal at hlo
            rw [if_pos h64] at hlo
            simp at hlo
            omega
          refine Runs.ite_neg ?_ (Runs.ite_neg (fun h => h.1 h40) ?_)
          · rintro ⟨_, h⟩
            rw [and3F b hb h64] at h
            omega
          · rw [← leb_63 res b hr (.inr hb')] at hv
            rw [show v = Int64.ofBitVec _ from Int64.toInt_inj.mp hv]
            exact Runs.pure
        · have h40 : ¬ (b &&& 0x40 ≠ 0) := fun h => h64 ((and40 b hb).1 h)
          have hb' : b.toNat = 0 := by
            unfold lastVal at hhi
            rw [if_neg h64] at hhi
            simp at hhi
            omega
          refine Runs.ite_neg (fun h => h40 h.1) (Runs.ite_neg ?_ ?_)
          · rintro ⟨_, h⟩
            rw [and3F0 b (by omega)] at h
            omega
          · rw [← leb_63 res b hr (.inl hb')] at hv
            rw [show v = Int64.ofBitVec _ from Int64.toInt_inj.mp hv]
            exact Runs.pure
      · refine Runs.ite_neg (by omega) ?_
        by_cases h64 : 64 ≤ b.toNat
        · have h40 := (and40 b hb).2 h64
          refine Runs.ite_pos h40 ?_
          rw [← leb_neg res b hr (by omega) hb h64] at hv
          rw [show v = Int64.ofBitVec _ from Int64.toInt_inj.mp hv]
          exact Runs.pure
        · have h40 : ¬ (b &&& 0x40 ≠ 0) := fun h => h64 ((and40 b hb).1 h)
          refine Runs.ite_neg h40 ?_
          rw [← leb_pos res b hr (by omega) hb h64] at hv
          rw [show v = Int64.ofBitVec _ from Int64.toInt_inj.mp hv]
          exact Runs.pure
    · have hstep := leb_step (w := 64) res b hr (by omega) (by decide)
      rw [mod_pow_of_le (by omega)] at hstep
      refine Runs.bind (b1 := [b]) (Runs.mapErr Runs.readByte) ?_
      refine Runs.ite_neg (by omega) (Runs.ite_neg (by omega) (Runs.ite_neg (by rw [and80]; omega) ?_))
      refine ih _ (s + 7) (by omega) (by omega) (by omega)
        (by rw [hstep]; exact step_lt hr) t m' v (by rw [← Nat.sub_sub]; exact hB') ?_
      rw [hv, hstep, ilin (by omega) (UInt8.toNat_lt b)]

theorem i64Loop_g : ∀ (rem : Nat) (res : BitVec 64) (s L : Nat), rem ≤ 10 →
    s = 7 * (10 - rem) →
    G 1 L (decodeI64Loop rem res s : Dec R _ _) (decodeI64Loop rem res s : Dec S _ _) := by
  intro rem
  induction rem with
  | zero => intros; exact G.err
  | succ rem ih =>
    intro res s L hrem hs
    simp only [decodeI64Loop]
    refine G.bind (j := 0) (G.mapErr G.readByte (fun _ => rfl) (fun _ => id)) (fun b => ?_) (by omega)
    refine G.ite (fun h => by omega) fun _ => G.ite (fun h => by omega) fun _ => ?_
    refine G.ite (fun _ => ?_) fun _ => G.mono (ih _ (s + 7) _ (by omega) (by omega)) (by omega)
    refine G.ite (fun _ => G.ite (fun _ => G.err) fun _ => G.ite (fun _ => G.err) fun _ => G.pure)
      fun _ => ?_
    exact G.ite (fun _ => G.pure) fun _ => G.pure

theorem decodeI64_sound : Sound (R := R) decodeI64 BI64 :=
  Sound.mono (i64Loop_sound 10 0 0 (by omega) rfl (by decide)) (by
    rintro bs v ⟨m, hm, hv⟩
    simp at hv hm
    unfold BI64; rw [hv]; exact hm)

theorem decodeI64_runs {bs : List UInt8} {v : Int64} (h : BI64 bs v) :
    Runs (R := R) decodeI64 bs v :=
  i64Loop_runs 10 0 0 (by omega) (by omega) rfl (by decide) bs v.toInt v h (by simp)

theorem decodeI64_g {L : Nat} : G 1 L (decodeI64 : Dec R _ _) (decodeI64 : Dec S _ _) :=
  i64Loop_g 10 0 0 L (by omega) rfl

end
end Wadec
