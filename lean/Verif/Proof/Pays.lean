import Verif.Model.Steps
import Verif.Spec.Steps

/-! C69: steps are paid for by the bytes that are read.

`Pays K c d c'`: with `K` for every byte that `d` reads, one for every interruption and the credit `c`, every step of `d` can be
paid; if `d` succeeds with `v`, the credit `c' v` is left. -/

namespace Wadec.Counted

variable {R : Type} {ε ε' α β σ : Type}

/-- what the bytes and interruptions still to come are worth -/
def worth [Metered R] (K : Nat) (r : R) : Nat := K * Metered.bytes r + Metered.hiccups r

/-- the credit left by an outcome -/
def left (c' : α → Nat) : Res ε α → Nat
  | .ok v => c' v
  | _ => 0

def Pays [Metered R] (K c : Nat) (d : Dec R ε α) (c' : α → Nat) : Prop :=
  ∀ r res r' n, d r = ((res, r'), n) → n + worth K r' + left c' res ≤ worth K r + c

namespace Pays

variable [Metered R] {K c c1 : Nat} {c' c1' : α → Nat}

theorem weaken {d : Dec R ε α} (h : Pays K c1 d c1') (hc : c1 ≤ c) (hc' : ∀ v, c' v ≤ c - c1 + c1' v) : Pays K c d c' := by
  intro r res r' n hr
  have := h r res r' n hr
  cases res with
  | ok v => have := hc' v; simp only [left] at *; omega
  | _ => simp only [left] at *; omega

theorem step {d : Dec R ε α} (hc : 1 ≤ c) (h : Pays K (c - 1) d c') : Pays K c (Dec.step d) c' := by
  intro r res r' n hr
  simp only [Dec.step, Dec.more] at hr
  cases hd : d r with
  | mk x m =>
    rw [hd] at hr
    cases hr
    have := h _ _ _ _ hd
    omega

theorem pure {v : α} (hc : c' v ≤ c) : Pays (R := R) (ε := ε) K c (Pure.pure v) c' := by
  intro r res r' n hr
  cases hr
  simp only [left]; omega
theorem err {e : ε} : Pays (R := R) (α := α) K c (Dec.err e) c' := by
  intro r res r' n hr
  cases hr
  simp only [left]; omega
theorem panic : Pays (R := R) (ε := ε) (α := α) K c Dec.panic c' := by
  intro r res r' n hr
  cases hr
  simp only [left]; omega
theorem fuel : Pays (R := R) (ε := ε) (α := α) K c Dec.outOfFuel c' := by
  intro r res r' n hr
  cases hr
  simp only [left]; omega
theorem charge {n : Nat} (hc : n ≤ c) : Pays (R := R) (ε := ε) K c (Dec.charge n) (fun _ => c - n) := by
  intro r res r' m hr
  cases hr
  simp only [left]; omega
theorem reserve {n : Nat} (hc : 1 ≤ c) : Pays (R := R) (ε := ε) K c (Dec.reserve n) (fun _ => c - 1) := by
  intro r res r' m hr
  cases hr
  simp only [left, worth, Metered.reserve_bytes, Metered.reserve_hiccups]; omega

theorem bind {d : Dec R ε α} {f : α → Dec R ε β} {c2' : β → Nat} (hd : Pays K c1 d c1') (hc : c1 ≤ c)
    (hf : ∀ v, Pays K (c - c1 + c1' v) (f v) c2') : Pays K c (d >>= f) c2' := by
  intro r res r' n hr
  simp only [Bind.bind, Dec.bind] at hr
  cases hd' : d r with
  | mk x m =>
    obtain ⟨res1, r1⟩ := x
    rw [hd'] at hr
    have h1 := hd _ _ _ _ hd'
    cases res1 with
    | ok v =>
      simp only [Dec.more] at hr
      cases hf' : f v r1 with
      | mk y k =>
        rw [hf'] at hr
        cases hr
        have h2 := hf v _ _ _ _ hf'
        simp only [left] at h1
        omega
    | _ => cases hr; simp only [left] at *; omega

theorem mapErr {d : Dec R ε α} {f : ε → ε'} (hd : Pays K c d c') : Pays K c (d.mapErr f) c' := by
  intro r res r' n hr
  simp only [Dec.mapErr] at hr
  cases hd' : d r with
  | mk x m =>
    obtain ⟨res1, r1⟩ := x
    rw [hd'] at hr
    have h1 := hd _ _ _ _ hd'
    cases res1 <;> cases hr <;> exact h1

theorem orElse {d : Dec R ε α} {f : α → β} {g : Dec R ε' β} {c2' : β → Nat} (hd : Pays K c1 d c1') (hc : c1 ≤ c)
    (hf : ∀ v, c2' (f v) ≤ c - c1 + c1' v) (hg : Pays K (c - c1) g c2') : Pays K c (d.orElseDiscard f g) c2' := by
  intro r res r' n hr
  simp only [Dec.orElseDiscard] at hr
  cases hd' : d r with
  | mk x m =>
    obtain ⟨res1, r1⟩ := x
    rw [hd'] at hr
    have h1 := hd _ _ _ _ hd'
    cases res1 with
    | ok v => cases hr; have := hf v; simp only [left] at *; omega
    | err e =>
      simp only [Dec.more] at hr
      cases hg' : g r1 with
      | mk y k =>
        rw [hg'] at hr
        cases hr
        have h2 := hg _ _ _ _ hg'
        simp only [left] at h1
        omega
    | _ => cases hr; simp only [left] at *; omega

theorem chain {b : UInt8} {d : Dec (Chain R) ε α} (hd : Pays K c d c') : Pays K (c + K) (Dec.withChain b d) c' := by
  intro r res r' n hr
  simp only [Dec.withChain] at hr
  cases hd' : d ⟨[b], r⟩ with
  | mk x m =>
    rw [hd'] at hr
    cases hr
    have h1 := hd _ _ _ _ hd'
    simp only [worth, Metered.bytes, Metered.hiccups, List.length_singleton, Nat.mul_add, Nat.mul_one] at h1 ⊢
    omega

theorem take {n : Nat} {d : Dec (Take R) ε α} (hd : Pays K c d c') : Pays K c (Dec.withTake n d) (fun x => c' x.1) := by
  intro r res r' k hr
  simp only [Dec.withTake] at hr
  cases hd' : d ⟨n, r⟩ with
  | mk x m =>
    obtain ⟨res1, r1⟩ := x
    rw [hd'] at hr
    have h1 := hd _ _ _ _ hd'
    cases res1 <;> cases hr <;> exact h1

theorem ite {p : Prop} [Decidable p] {a b : Dec R ε α} (ha : p → Pays K c a c') (hb : ¬ p → Pays K c b c') :
    Pays K c (if p then a else b) c' := by
  split <;> rename_i h
  · exact ha h
  · exact hb h

end Pays

/-! ### The reader -/

/-- The price of a byte is at least this (see the proofs). -/
class Rate (K : Nat) : Prop where
  le : 64 ≤ K

section
variable [Metered R] {K : Nat} [hr : Rate K]

theorem pays_readExactLoop : ∀ f n acc r res r' m, (readExactLoop f n acc : Dec R IoError (List UInt8)) r = ((res, r'), m) →
    m + worth K r' + left (fun v => K * (v.length - acc.length)) res ≤
      worth K r + 1 + left (fun v => 2 * (v.length - acc.length)) res
  | 0, n, acc, r, res, r', m, h => by
    simp only [readExactLoop, Dec.step, Dec.more, Dec.outOfFuel] at h
    cases h; simp only [left]; omega
  | f + 1, n, acc, r, res, r', m, h => by
    simp only [readExactLoop, Dec.step, Dec.more] at h
    have hK := Rate.le (K := K)
    by_cases hn : n = 0
    · rw [if_pos hn] at h
      cases h; simp only [left, Nat.sub_self, Nat.mul_zero]; omega
    · rw [if_neg hn] at h
      cases hd : Read.read n r with
      | mk x r1 =>
        rw [hd] at h
        rcases x with e | bs
        · by_cases he : e = .interrupted
          · subst he
            simp only at h
            cases hl : (readExactLoop f n acc : Dec R IoError (List UInt8)) r1 with
            | mk y k =>
              rw [hl] at h
              cases h
              have h1 := pays_readExactLoop f n acc _ _ _ _ hl
              have h2 := Metered.read_int hd
              have h3 := Nat.mul_le_mul_left K h2.1
              simp only [worth] at *
              omega
          · have : m = 1 ∧ res = .err e ∧ r' = r1 := by
              cases e <;> first | exact absurd rfl he | (cases h; exact ⟨rfl, rfl, rfl⟩)
            obtain ⟨rfl, rfl, rfl⟩ := this
            have h2 := Metered.read_err hd
            have h3 := Nat.mul_le_mul_left K h2.1
            simp only [worth, left] at *
            omega
        · have h2 := Metered.read_ok hd
          have h3 := Nat.mul_le_mul_left K h2.1
          cases bs with
          | nil => cases h; simp only [worth, left, List.length_nil, Nat.add_zero] at *; omega
          | cons b bs =>
            simp only at h
            cases hl : (readExactLoop f (n - (b :: bs).length) (acc ++ b :: bs) : Dec R IoError (List UInt8)) r1 with
            | mk y k =>
              rw [hl] at h
              obtain ⟨res1, r2⟩ := y
              obtain ⟨⟨rfl, rfl⟩, rfl⟩ : (res1 = res ∧ r2 = r') ∧ 1 + ((b :: bs).length + k) = m := by
                cases h; exact ⟨⟨rfl, rfl⟩, rfl⟩
              have h1 := pays_readExactLoop f _ _ _ _ _ _ hl
              have hl1 : 1 ≤ (b :: bs).length := by simp
              generalize hL : (b :: bs).length = L at *
              rw [Nat.mul_add] at h3
              have h5 : 64 * L ≤ K * L := Nat.mul_le_mul_right L hK
              cases res1 with
              | ok v =>
                simp only [worth, left, List.length_append] at *
                generalize v.length = V at *
                generalize acc.length = A at *
                rw [hL] at h1
                by_cases hv : A + L ≤ V
                · have e : V - A = (V - (A + L)) + L := by omega
                  rw [e, Nat.mul_add K]
                  omega
                · have e : V - (A + L) = 0 := by omega
                  rw [e] at h1
                  have h6 : K * L = K * (V - A) + K * (L - (V - A)) := by rw [← Nat.mul_add]; congr 1; omega
                  have h7 : 64 * (L - (V - A)) ≤ K * (L - (V - A)) := Nat.mul_le_mul_right _ hK
                  simp only [Nat.mul_zero] at h1
                  omega
              | _ => simp only [worth, left] at *; omega

theorem pays_readExact (n : Nat) {c : Nat} (hc : 2 ≤ c) :
    Pays (R := R) K c (readExact n) (fun v => c - 2 + (K * v.length - 2 * v.length)) := by
  intro r res r' m h
  simp only [readExact, Dec.step, Dec.more] at h
  cases hl : (readExactLoop (Read.weight r + 1) n [] : Dec R IoError (List UInt8)) r with
  | mk y k =>
    obtain ⟨res1, r1⟩ := y
    rw [hl] at h
    cases h
    have := pays_readExactLoop (K := K) _ _ _ _ _ _ _ hl
    cases res with
    | ok v =>
      simp only [left, List.length_nil, Nat.sub_zero] at *
      have := Nat.mul_le_mul_right v.length (Nat.le_trans (by decide : 2 ≤ 64) (Rate.le (K := K)))
      omega
    | _ => simp only [left] at *; omega

theorem readExactLoop_len : ∀ f n acc r v r' m, (readExactLoop f n acc : Dec R IoError (List UInt8)) r = ((.ok v, r'), m) →
    acc.length + n ≤ v.length
  | 0, n, acc, r, v, r', m, h => by
    simp only [readExactLoop, Dec.step, Dec.more, Dec.outOfFuel] at h
    cases h
  | f + 1, n, acc, r, v, r', m, h => by
    simp only [readExactLoop, Dec.step, Dec.more] at h
    by_cases hn : n = 0
    · rw [if_pos hn] at h
      cases h; omega
    · rw [if_neg hn] at h
      cases hd : Read.read n r with
      | mk x r1 =>
        rw [hd] at h
        rcases x with e | bs
        · by_cases he : e = .interrupted
          · subst he
            simp only at h
            cases hl : (readExactLoop f n acc : Dec R IoError (List UInt8)) r1 with
            | mk y k =>
              rw [hl] at h
              cases h
              exact readExactLoop_len f n acc _ _ _ _ hl
          · cases e <;> first | exact absurd rfl he | cases h
        · cases bs with
          | nil => cases h
          | cons b bs =>
            simp only at h
            cases hl : (readExactLoop f (n - (b :: bs).length) (acc ++ b :: bs) : Dec R IoError (List UInt8)) r1 with
            | mk y k =>
              rw [hl] at h
              cases h
              have h1 := readExactLoop_len f _ _ _ _ _ _ hl
              rw [List.length_append] at h1
              omega

/-- The buffer pays for itself. -/
theorem pays_readExact' (n : Nat) {c : Nat} (hc : 2 ≤ c) :
    Pays (R := R) K c (readExact n) (fun _ => c - 2 + (K * n - 2 * n)) := by
  intro r res r' m h
  have h0 := pays_readExact (K := K) n hc r res r' m h
  cases res with
  | ok v =>
    have : n ≤ v.length := by
      simp only [readExact, Dec.step, Dec.more] at h
      cases hl : (readExactLoop (Read.weight r + 1) n [] : Dec R IoError (List UInt8)) r with
      | mk y k =>
        rw [hl] at h
        cases h
        have := readExactLoop_len _ _ _ _ _ _ _ hl
        simpa using this
    simp only [left] at h0 ⊢
    have h1 : (K - 2) * n ≤ (K - 2) * v.length := Nat.mul_le_mul_left _ this
    rw [Nat.sub_mul, Nat.sub_mul] at h1
    omega
  | _ => exact h0

theorem pays_readToEndLoop : ∀ f acc r res r' m, (readToEndLoop f acc : Dec R IoError (List UInt8)) r = ((res, r'), m) →
    m + worth K r' ≤ worth K r + 1
  | 0, acc, r, res, r', m, h => by
    simp only [readToEndLoop, Dec.step, Dec.more, Dec.outOfFuel] at h
    cases h; omega
  | f + 1, acc, r, res, r', m, h => by
    simp only [readToEndLoop, Dec.step, Dec.more] at h
    have hK := Rate.le (K := K)
    cases hd : Read.read (Read.room r + 1) r with
    | mk x r1 =>
      rw [hd] at h
      rcases x with e | bs
      · by_cases he : e = .interrupted
        · subst he
          simp only at h
          cases hl : (readToEndLoop f acc : Dec R IoError (List UInt8)) r1 with
          | mk y k =>
            rw [hl] at h
            cases h
            have h1 := pays_readToEndLoop f acc _ _ _ _ hl
            have h2 := Metered.read_int hd
            have h3 := Nat.mul_le_mul_left K h2.1
            simp only [worth] at *
            omega
        · have : m = 1 ∧ r' = r1 := by
            cases e <;> first | exact absurd rfl he | (cases h; exact ⟨rfl, rfl⟩)
          obtain ⟨rfl, rfl⟩ := this
          have h2 := Metered.read_err hd
          have h3 := Nat.mul_le_mul_left K h2.1
          simp only [worth] at *
          omega
      · have h2 := Metered.read_ok hd
        have h3 := Nat.mul_le_mul_left K h2.1
        cases bs with
        | nil => cases h; simp only [worth, List.length_nil, Nat.add_zero] at *; omega
        | cons b bs =>
          simp only at h
          cases hl : (readToEndLoop f (acc ++ b :: bs) : Dec R IoError (List UInt8)) r1 with
          | mk y k =>
            rw [hl] at h
            obtain ⟨res1, r2⟩ := y
            obtain ⟨rfl, rfl⟩ : r2 = r' ∧ 1 + ((b :: bs).length + k) = m := by cases h; exact ⟨rfl, rfl⟩
            have h1 := pays_readToEndLoop f _ _ _ _ _ hl
            have hl1 : 1 ≤ (b :: bs).length := by simp
            generalize (b :: bs).length = L at *
            rw [Nat.mul_add] at h3
            have h5 : 64 * L ≤ K * L := Nat.mul_le_mul_right L hK
            simp only [worth] at *
            omega

theorem pays_readToEnd {c : Nat} (hc : 2 ≤ c) : Pays (R := R) K c readToEnd (fun _ => c - 2) := by
  intro r res r' m h
  simp only [readToEnd, Dec.step, Dec.more] at h
  cases hl : (readToEndLoop (Read.weight r + 1) [] : Dec R IoError (List UInt8)) r with
  | mk y k =>
    obtain ⟨res1, r1⟩ := y
    rw [hl] at h
    cases h
    have := pays_readToEndLoop (K := K) _ _ _ _ _ _ hl
    cases res <;> simp only [left] <;> omega

end

/-! ### Decoders that read at least a byte

`Cost K d s`: `s` pays for the steps, the first byte is left over. -/

class Cost [Metered R] (K : Nat) (d : Dec R ε α) (s : outParam Nat) : Prop where
  pays : Pays K s d (fun _ => K)

section
variable [Metered R] {K : Nat} [hr : Rate K]

instance cost_readByte : Cost (R := R) K readByte 5 := ⟨by
  have hK := Rate.le (K := K)
  refine Pays.step (by omega) (Pays.bind (pays_readExact 1 (c := 4) (by omega)) (by omega) fun v => ?_)
  split
  · exact Pays.pure (by simp; omega)
  · exact Pays.panic⟩

instance cost_mapErr {d : Dec R ε α} {f : ε → ε'} {s : Nat} [h : Cost K d s] : Cost K (d.mapErr f) s := ⟨Pays.mapErr h.pays⟩

instance cost_chain {b : UInt8} {d : Dec (Chain R) ε α} {s : Nat} [h : Cost K d s] : Cost K (Dec.withChain b d) (s + K) :=
  ⟨Pays.chain h.pays⟩

theorem Cost.bind {c s : Nat} {d : Dec R ε α} {f : α → Dec R ε β} {c' : β → Nat} [h : Cost K d s] (hc : s ≤ c)
    (hf : ∀ v, Pays K (c - s + K) (f v) c') : Pays K c (d >>= f) c' := Pays.bind h.pays hc hf

theorem Cost.last {c s : Nat} {d : Dec R ε α} {c' : α → Nat} [h : Cost K d s] (hc : s ≤ c) (hc' : ∀ v, c' v ≤ c - s + K) :
    Pays K c d c' := Pays.weaken h.pays hc hc'

theorem Pays.chargeBind {n c : Nat} {f : Unit → Dec R ε β} {c' : β → Nat} (hc : n ≤ c) (hf : Pays K (c - n) (f ()) c') :
    Pays K c (Dec.charge n >>= f) c' :=
  Pays.bind (Pays.charge hc) (Nat.le_refl _) fun _ => by simpa using hf

/-- One structural step. -/
syntax "pay1" : tactic
macro_rules | `(tactic| pay1) => `(tactic| with_reducible first
  | refine Pays.step (by omega) ?_
  | refine Pays.chargeBind (by omega) ?_
  | refine Cost.bind (by omega) fun _ => ?_
  | refine Pays.mapErr ?_
  | refine Pays.ite (fun _ => ?_) (fun _ => ?_)
  | exact Pays.pure (by omega) | exact Pays.err | exact Pays.panic | exact Pays.fuel
  | exact Cost.last (by omega) (fun _ => by omega))

macro "pay" : tactic => `(tactic| (repeat' (first | pay1 | (dsimp only; pay1) | split)))

end

end Wadec.Counted
